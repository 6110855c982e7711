/-
The text of a specular-glossiness material.
-/
import Verif.Lemmas.Transform

namespace Gltf
open Spec

/-! ### Texts of values -/

mutual
theorem print_compact : (v : JVal) → ∀ n m, v.print compact n = v.print compact m
  | .null, _, _ => by simp [JVal.print]
  | .bool true, _, _ => by simp [JVal.print]
  | .bool false, _, _ => by simp [JVal.print]
  | .num _, _, _ => by simp [JVal.print]
  | .str _, _, _ => by simp [JVal.print]
  | .arr [], _, _ => by simp [JVal.print]
  | .arr (v :: l), n, m => by
    have h1 : ∀ k, compact.newline k = [] := fun _ => rfl
    simp only [JVal.print, h1]
    rw [print_compact v (n + 1) (m + 1), printElems_compact l (n + 1) (m + 1)]
  | .obj [], _, _ => by simp [JVal.print]
  | .obj ((k, v) :: l), n, m => by
    have h1 : ∀ k, compact.newline k = [] := fun _ => rfl
    simp only [JVal.print, h1]
    rw [print_compact v (n + 1) (m + 1), printMembers_compact l (n + 1) (m + 1)]
theorem printElems_compact : (l : List JVal) → ∀ n m, printElems compact n l = printElems compact m l
  | [], _, _ => by simp [printElems]
  | v :: l, n, m => by
    have h1 : ∀ k, compact.newline k = [] := fun _ => rfl
    simp only [printElems, h1]
    rw [print_compact v n m, printElems_compact l n m]
theorem printMembers_compact : (l : List (Bytes × JVal)) → ∀ n m, printMembers compact n l = printMembers compact m l
  | [], _, _ => by simp [printMembers]
  | (k, v) :: l, n, m => by
    have h1 : ∀ k, compact.newline k = [] := fun _ => rfl
    simp only [printMembers, h1]
    rw [print_compact v n m, printMembers_compact l n m]
end

theorem infix_skip_all {p x : Bytes} {d : UInt8} (hp : p.head? = some d) : ∀ {pre : Bytes}, d ∉ pre → p <:+: pre ++ x → p <:+: x
  | [], _, h => h
  | c :: pre, hd, h => infix_skip_all hp (fun hm => hd (List.mem_cons_of_mem c hm))
      (infix_skip hp (fun e => hd (e ▸ List.mem_cons_self)) (by simpa using h))

/-- The text of an object after its key. -/
theorem solid_value {pre x : Bytes} (hp : Plain pre) (hx : x ≠ []) (hl : x.getLast? = some 125)
    (cc : ¬ b!",," <:+: x) (oc : ¬ b!"{," <:+: x) (co : ¬ b!",}" <:+: x) : Solid (pre ++ x) where
  ne := by simp [hx]
  head := by
    have h1 := hp.1
    have h2 := hp.2
    cases pre with
    | nil => exact absurd rfl h1
    | cons c pre =>
      have := h2 c (by simp)
      simp [this]
  last := by
    rw [List.getLast?_append, hl]
    simp
  cc := fun h => cc (infix_skip_all (d := 44) rfl (fun hm => (hp.2 _ hm).1 rfl) h)
  oc := fun h => oc (infix_skip_all (d := 123) rfl (fun hm => (hp.2 _ hm).2.1 rfl) h)
  co := fun h => co (infix_skip_all (d := 44) rfl (fun hm => (hp.2 _ hm).1 rfl) h)

theorem print_obj_last (ms : List (Bytes × JVal)) (n : Nat) : ((JVal.obj ms).print compact n).getLast? = some 125 := by
  rw [print_compact _ n 0, print_obj]
  exact List.getLast?_concat (l := 123 :: joinC (ms.map memberText)) (a := 125)

/-! ### The codec whose text is written -/

/-- The members that stay. -/
def specularOut (E : Env) : JC Specular :=
  .struct
    (fun s => (s.diffuseFactor, s.diffuseTexture, s.specularFactor, s.glossinessFactor, s.specularGlossinessTexture, ()))
    (fun t => { diffuseFactor := t.1, diffuseTexture := t.2.1, specularFactor := t.2.2.1, glossinessFactor := t.2.2.2.1,
                specularGlossinessTexture := t.2.2.2.2.1 })
    (.cons b!"diffuseFactor" ((JC.ptr (JC.array 4 E.float)).omitIf fun m => m.all (arrayEq · white)) <|
     .cons b!"diffuseTexture" ((JC.ptr (textureInfoC E)).omitIf Option.isNone) <|
     .cons b!"specularFactor" ((JC.ptr (JC.array 3 E.float)).omitIf fun m => m.all (arrayEq · defaultScale)) <|
     .cons b!"glossinessFactor" (E.omitFloatIf f64one) <|
     .cons b!"specularGlossinessTexture" ((JC.ptr (textureInfoC E)).omitIf Option.isNone) <|
     .nil)

/-- Values that can be printed. -/
structure SpecularOk (r : Registry) (n : Nat) (s : Specular) : Prop where
  diffuseFactor : ∀ a ∈ s.diffuseFactor, ∀ x ∈ a.toList, x.finite = true
  diffuseTexture : ∀ a ∈ s.diffuseTexture, TextureInfoOk r n a
  specularFactor : ∀ a ∈ s.specularFactor, ∀ x ∈ a.toList, x.finite = true
  glossinessFactor : ∀ x ∈ s.glossinessFactor, x.finite = true
  specularGlossinessTexture : ∀ a ∈ s.specularGlossinessTexture, TextureInfoOk r n a

/-- What is read back. -/
def normSpecular (s : Specular) : Specular where
  diffuseFactor := some (s.diffuseFactor.getD ones)
  diffuseTexture := s.diffuseTexture
  specularFactor := some (s.specularFactor.getD ones)
  glossinessFactor := some (s.glossinessFactor.getD one)
  specularGlossinessTexture := s.specularGlossinessTexture

theorem all_ones {n : Nat} {a d : Vector F64 n} (hd : d = ones) (hw : ∀ x ∈ d.toList, x.finite = true) (ha : ∀ x ∈ a.toList, x.finite = true) (h : arrayEq a d = true) : a = d := by
  have h := (arrayEq_iff ha hw).1 h
  ext i hi
  have h1 : d[i] = f64one := by
    rw [hd]; simp [ones]; rfl
  exact same_eq (h ⟨i, hi⟩) (by show (d[i]).mag ≠ 0; rw [h1]; decide +kernel)

theorem factor_fe {E : Env} (hf : FloatLaws E.io) {n : Nat} {d : Vector F64 n} (hd : d = ones) (hw : ∀ x ∈ d.toList, x.finite = true) :
    ((JC.ptr (JC.array n E.float)).omitIf fun m => m.all (arrayEq · d)).Law 1 (some d)
      (fun o => ∀ a ∈ o, ∀ x ∈ a.toList, x.finite = true) (fun o => some (o.getD ones)) := by
  refine omitIf_law (ptr_law (some d) (array_nonNull _ _) (array_float_law hf n _)) (fun o ho hp => ?_) (fun o ho hp => ⟨ho, ?_⟩)
  · cases o with
    | none => rw [hd]; rfl
    | some a =>
      rw [Option.all_some] at hp
      rw [all_ones hd hw (ho a rfl) hp]; rfl
  · cases o with
    | none => cases hp
    | some a => rfl

theorem specularOut_law {E : Env} (hf : FloatLaws E.io) (n : Nat) : (specularOut E).Law (n + 3)
    { diffuseFactor := some white, specularFactor := some defaultScale, glossinessFactor := some f64one } (SpecularOk E.reg n) normSpecular :=
  struct_law
    (cons_law (by by_names) (FE.Law.mono (factor_fe hf (d := white) (by decide +kernel) (by decide +kernel)) (by omega)) <|
    (cons_law (by by_names) (FE.Law.mono (opt_fe_id (textureInfoC_nonNull E) (textureInfoC_law hf n)) (by omega)) <|
    (cons_law (by by_names) (FE.Law.mono (factor_fe hf (d := defaultScale) (by decide +kernel) (by decide +kernel)) (by omega)) <|
    (cons_law (by by_names) (FE.Law.mono (omitOne_fe hf) (by omega)) <|
    (cons_law (by by_names) (FE.Law.mono (opt_fe_id (textureInfoC_nonNull E) (textureInfoC_law hf n)) (by omega)) <|
    nil_law (n + 2))))))
    (by by_names) rfl (fun s h => ⟨h.diffuseFactor, h.diffuseTexture, h.specularFactor, h.glossinessFactor, h.specularGlossinessTexture, trivial⟩)
    (fun s => rfl)

theorem specularOut_dec (E : Env) (v : JVal) : (specularOut E).dec v
    { diffuseFactor := some white, specularFactor := some defaultScale, glossinessFactor := some f64one } = specularDec E v := by
  unfold specularOut specularDec specularC'
  rw [struct_dec_congr]
  rfl

/-! ### The text -/

/-- The members that are searched for. -/
def glossPat : Bytes := b!"\"glossinessFactor\":1"
@[inherit_doc glossPat]
def diffusePat : Bytes := b!"\"diffuseFactor\":[1,1,1,1]"
@[inherit_doc glossPat]
def specularPat : Bytes := b!"\"specularFactor\":[1,1,1]"

/-- The encoding of an array that may be missing. -/
def arrVal (E : Env) {n : Nat} (o : Option (Vector F64 n)) : Option JVal := o.map fun a => .arr ((a.toList.map E.io.fmt).map .num)

theorem arr_enc (E : Env) {n : Nat} {o : Option (Vector F64 n)} (h : ∀ a ∈ o, ∀ x ∈ a.toList, x.finite = true) :
    ((JC.ptr (JC.array n E.float)).omitIf Option.isNone).enc o = .ok (arrVal E o) := by
  cases o with
  | none => rfl
  | some a =>
    simp only [JC.omitIf, Option.isNone_some, JC.ptr, array_enc E (h a rfl)]
    rfl

theorem arr_enc_out (E : Env) {n : Nat} {o : Option (Vector F64 n)} (h : ∀ a ∈ o, ∀ x ∈ a.toList, x.finite = true) (d : Vector F64 n) :
    ((JC.ptr (JC.array n E.float)).omitIf fun m => m.all (arrayEq · d)).enc o =
      .ok (if o.any (arrayEq · d) then none else arrVal E o) := by
  cases o with
  | none => rfl
  | some a =>
    simp only [JC.omitIf, Option.all_some, Option.any_some]
    by_cases hb : arrayEq a d = true
    · rw [if_pos hb, if_pos hb]
    · rw [if_neg hb, if_neg hb]
      simp only [JC.ptr, array_enc E (h a rfl)]
      rfl

theorem gloss_enc (E : Env) {o : Option F64} (h : ∀ x ∈ o, x.finite = true) :
    ((JC.ptr E.float).omitIf Option.isNone).enc o = .ok (o.map fun x => .num (E.io.fmt x)) := by
  cases o with
  | none => rfl
  | some x =>
    have h1 : E.float.enc x = .ok (.num (E.io.fmt x)) := by simp [Env.float, JC.float, h x rfl]
    simp only [JC.omitIf, Option.isNone_some, JC.ptr, h1]
    rfl

theorem gloss_enc_out (E : Env) {o : Option F64} (h : ∀ x ∈ o, x.finite = true) :
    (E.omitFloatIf f64one).enc o = .ok (if o.any (·.feq f64one) then none else o.map fun x => .num (E.io.fmt x)) := by
  cases o with
  | none => rfl
  | some x =>
    have h1 : E.float.enc x = .ok (.num (E.io.fmt x)) := by simp [Env.float, JC.float, h x rfl]
    simp only [Env.omitFloatIf, JC.omitIf, Option.all_some, Option.any_some]
    by_cases hb : x.feq f64one = true
    · rw [if_pos hb, if_pos hb]
    · rw [if_neg hb, if_neg hb]
      simp only [JC.ptr, h1]
      rfl

/-- The text of a texture that the search leaves alone. -/
structure CleanText (x : Bytes) : Prop where
  cc : ¬ b!",," <:+: x
  oc : ¬ b!"{," <:+: x
  co : ¬ b!",}" <:+: x

theorem texture_solid {k : Bytes} (hk : ∀ c ∈ printStr k ++ b!":", c ≠ 44 ∧ c ≠ 123 ∧ c ≠ 125) {ms : List (Bytes × JVal)}
    (h : CleanText ((JVal.obj ms).print compact 0)) : Solid (memberText (k, .obj ms)) := by
  have hl := print_obj_last ms 0
  have e : memberText (k, .obj ms) = (printStr k ++ b!":") ++ (JVal.obj ms).print compact 0 := by
    unfold memberText
    rw [print_compact _ 1 0]
    simp
  rw [e]
  refine solid_value ⟨by simp, hk⟩ ?_ hl h.cc h.oc h.co
  intro h0
  rw [h0] at hl
  cases hl

theorem not_infix_key {p' x : Bytes} {c : UInt8} (hc : c ≠ 100 ∧ c ≠ 58) (h : ¬ 34 :: c :: p' <:+: x) :
    ¬ 34 :: c :: p' <:+: b!"\"diffuseTexture\":" ++ x := by
  intro hi
  apply h
  simpa [List.infix_cons_iff, List.cons_prefix_cons, hc.1, hc.2] using hi

theorem diffuseTexture_avoids {p' : Bytes} {c : UInt8} (hc : c ≠ 100 ∧ c ≠ 58) {ms : List (Bytes × JVal)}
    (h : ¬ 34 :: c :: p' <:+: (JVal.obj ms).print compact 0)
    (hu : ∀ u v, 34 :: c :: p' = u ++ 44 :: v → u.getLast? ≠ some 125 ∧ u ≠ []) : Avoids (34 :: c :: p') (memberText (b!"diffuseTexture", .obj ms)) := by
  have hl := print_obj_last ms 0
  have e : memberText (b!"diffuseTexture", .obj ms) = b!"\"diffuseTexture\":" ++ (JVal.obj ms).print compact 0 := by
    unfold memberText
    rw [print_compact _ 1 0]
    rfl
  rw [e]
  refine ⟨not_infix_key hc h, fun u v huv hs => ?_⟩
  obtain ⟨h1, h2⟩ := hu u v huv
  obtain ⟨s, hs⟩ := hs
  have := congrArg List.getLast? hs
  rw [List.getLast?_append, List.getLast?_append, hl] at this
  cases hg : u.getLast? with
  | none => exact h2 (List.getLast?_eq_none_iff.1 hg)
  | some d => rw [hg] at this h1; simp at this; exact h1 (by rw [this])

theorem ends_one {p u v : Bytes} (h : (List.range p.length).all (fun i => p[i]? != some 44 || ((p.take i).getLast? == some 49)) = true)
    (e : p = u ++ 44 :: v) : u.getLast? ≠ some 125 ∧ u ≠ [] := by
  have := List.all_eq_true.1 h u.length (by rw [e]; simp)
  rw [e] at this
  simp only [List.take_left] at this
  have : u.getLast? = some 49 := by simpa using this
  refine ⟨by rw [this]; decide, ?_⟩
  rintro rfl
  cases this

/-- The encoding of a texture that may be missing. -/
theorem texture_enc {E : Env} (hf : FloatLaws E.io) {n : Nat} {o : Option TextureInfo} (h : ∀ a ∈ o, TextureInfoOk E.reg n a) :
    ∃ w : Option JVal, ((JC.ptr (textureInfoC E)).omitIf Option.isNone).enc o = .ok w ∧
      ∀ v ∈ w, ∃ a ms, o = some a ∧ v = .obj ms ∧ (textureInfoC E).enc a = .ok v := by
  cases o with
  | none => exact ⟨none, rfl, fun v hv => by cases hv⟩
  | some a =>
    obtain ⟨v, h1, _⟩ := textureInfoC_law hf n a (h a rfl)
    refine ⟨some v, ?_, ?_⟩
    · simp only [JC.omitIf, Option.isNone_some, JC.ptr, h1]
      rfl
    · intro v' hv
      cases hv
      have h1' := h1
      simp only [textureInfoC, JC.struct] at h1
      cases hms : FC.enc _ ((fun s : TextureInfo => (s.extensions, s.extras, s.index, s.texCoord, ())) a) with
      | error e => rw [hms] at h1; cases h1
      | ok ms =>
        rw [hms] at h1
        cases h1
        exact ⟨a, ms, rfl, rfl, h1'⟩

/-- What is needed of the textures: their text has none of the pairs that the editing looks for, and the text of the
first texture does not have the members that follow and are removed. -/
structure TexturesOk (E : Env) (p : Specular) : Prop where
  diffuse : ∀ a ∈ p.diffuseTexture, ∀ v, (textureInfoC E).enc a = .ok v →
    CleanText (v.print compact 0) ∧ (p.glossinessFactor = some one → ¬ glossPat <:+: v.print compact 0) ∧
      (p.specularFactor = some ones → ¬ specularPat <:+: v.print compact 0)
  glossiness : ∀ a ∈ p.specularGlossinessTexture, ∀ v, (textureInfoC E).enc a = .ok v → CleanText (v.print compact 0)

theorem arr_item {E : Env} (hf : FloatLaws E.io) {n : Nat} (hn : n ≠ 0) {k p : Bytes} (c : UInt8) (hk : c ∉ printStr k ++ b!":[")
    (hs : ∀ c ∈ printStr k ++ b!":[", c ≠ 44 ∧ c ≠ 123 ∧ c ≠ 125)
    (hc : c ∉ b!"]" ∧ c ≠ 44 ∧ numChar c = false) (hp : c ∈ p.takeWhile (· ≠ 44)) {o : Option (Vector F64 n)}
    (h : ∀ a ∈ o, ∀ x ∈ a.toList, x.finite = true) : ∀ s ∈ optItem k (arrVal E o), Solid s ∧ Avoids p s := by
  cases o with
  | none => exact fun s hs => by cases hs
  | some a =>
    intro s hs'
    have hs' : s ∈ [memberText (k, .arr ((a.toList.map E.io.fmt).map .num))] := hs'
    rw [List.mem_singleton.1 hs']
    have h0 : a.toList ≠ [] := by
      intro h
      have := congrArg List.length h
      simp at this
      exact hn this
    exact ⟨array_member_solid hf hs h0 (h a rfl), array_member_avoids hf c hk hc hp h0 (h a rfl)⟩

theorem specular_text (E : Env) (hg : GoText E.io) {n : Nat} {p : Specular} (h : SpecularOk E.reg n p) (ht : TexturesOk E p) {v : JVal}
    (hv : (specularOut E).enc p = .ok v) : specularText E p = .ok (v.print compact 0) := by
  obtain ⟨oA, hA, hA'⟩ := texture_enc hg.laws h.diffuseTexture
  obtain ⟨oB, hB, hB'⟩ := texture_enc hg.laws h.specularGlossinessTexture
  have henc := cons_enc (name := b!"diffuseFactor") (arr_enc E h.diffuseFactor) (cons_enc (name := b!"diffuseTexture") hA
    (cons_enc (name := b!"specularFactor") (arr_enc E h.specularFactor) (cons_enc (name := b!"glossinessFactor") (gloss_enc E h.glossinessFactor)
    (cons_enc (name := b!"specularGlossinessTexture") hB (t := ()) (r := FC.nil) rfl))))
  have hout := cons_enc (name := b!"diffuseFactor") (arr_enc_out E h.diffuseFactor white) (cons_enc (name := b!"diffuseTexture") hA
    (cons_enc (name := b!"specularFactor") (arr_enc_out E h.specularFactor defaultScale) (cons_enc (name := b!"glossinessFactor") (gloss_enc_out E h.glossinessFactor)
    (cons_enc (name := b!"specularGlossinessTexture") hB (t := ()) (r := FC.nil) rfl))))
  simp only [specularOut, JC.struct, hout] at hv
  cases hv
  unfold specularText
  simp only [specularC', JC.struct, henc]
  show Except.ok (sanitizeJSON _) = _
  have hGone : p.glossinessFactor.any (·.feq f64one) = true → p.glossinessFactor = some one := by
    intro hx
    cases hy : p.glossinessFactor with
    | none => rw [hy] at hx; cases hx
    | some x =>
      rw [hy, Option.any_some] at hx
      rw [same_eq ((feq_iff (h.glossinessFactor x hy) (by decide +kernel)).1 hx) (by decide +kernel)]
      rfl
  have hSones : p.specularFactor.any (arrayEq · defaultScale) = true → p.specularFactor = some ones := by
    intro hx
    cases hy : p.specularFactor with
    | none => rw [hy] at hx; cases hx
    | some x =>
      rw [hy, Option.any_some] at hx
      rw [all_ones (by decide +kernel) (by decide +kernel) (h.specularFactor x hy) hx]
      decide +kernel
  -- the textures
  have sA : ∀ s ∈ optItem b!"diffuseTexture" oA, Solid s ∧ (p.glossinessFactor = some one → Avoids glossPat s) ∧
      (p.specularFactor = some ones → Avoids specularPat s) := by
    intro s hs
    cases oA with
    | none => cases hs
    | some v =>
      obtain ⟨a, ms, ha, rfl, he⟩ := hA' v rfl
      rw [List.mem_singleton.1 hs]
      obtain ⟨k1, k2, k3⟩ := ht.diffuse a ha _ he
      refine ⟨texture_solid (by decide) k1, fun hx => diffuseTexture_avoids (by decide) (k2 hx) (fun u v e => ends_one (by decide) e),
        fun hx => diffuseTexture_avoids (by decide) (k3 hx) (fun u v e => ends_one (by decide) e)⟩
  have sB : ∀ s ∈ optItem b!"specularGlossinessTexture" oB, Solid s := by
    intro s hs
    cases oB with
    | none => cases hs
    | some v =>
      obtain ⟨a, ms, ha, rfl, he⟩ := hB' v rfl
      rw [List.mem_singleton.1 hs]
      exact texture_solid (by decide) (ht.glossiness a ha _ he)
  -- the numbers
  have dG := arr_item hg.laws (n := 4) (by decide) (k := b!"diffuseFactor") (p := glossPat) 103 (by decide) (by decide) (by decide) (by decide) h.diffuseFactor
  have dS := arr_item hg.laws (n := 4) (by decide) (k := b!"diffuseFactor") (p := specularPat) 112 (by decide) (by decide) (by decide) (by decide) h.diffuseFactor
  have pG := arr_item hg.laws (n := 3) (by decide) (k := b!"specularFactor") (p := glossPat) 103 (by decide) (by decide) (by decide) (by decide) h.specularFactor
  have gS : ∀ s ∈ optItem b!"glossinessFactor" (p.glossinessFactor.map fun x => .num (E.io.fmt x)), Solid s := by
    intro s hs
    cases hx : p.glossinessFactor with
    | none => rw [hx] at hs; cases hs
    | some x =>
      rw [hx] at hs
      rw [List.mem_singleton.1 hs]
      exact num_member_solid (by decide) (hg.laws.number x (h.glossinessFactor x hx))
  have one1 : E.io.fmt f64one = b!"1" := hg.one
  have eG : p.glossinessFactor.any (·.feq f64one) = true →
      optItem b!"glossinessFactor" (p.glossinessFactor.map fun x => .num (E.io.fmt x)) = [glossPat] := by
    intro hx
    cases hy : p.glossinessFactor with
    | none => rw [hy] at hx; cases hx
    | some x =>
      rw [hy, Option.any_some] at hx
      have : x = f64one := same_eq ((feq_iff (h.glossinessFactor x hy) (by decide +kernel)).1 hx) (by decide +kernel)
      rw [this, Option.map_some, one1]
      rfl
  have eD : p.diffuseFactor.any (arrayEq · white) = true → optItem b!"diffuseFactor" (arrVal E p.diffuseFactor) = [diffusePat] := by
    intro hx
    cases hy : p.diffuseFactor with
    | none => rw [hy] at hx; cases hx
    | some x =>
      rw [hy, Option.any_some] at hx
      rw [all_ones (by decide +kernel) (by decide +kernel) (h.diffuseFactor x hy) hx]
      simp [arrVal, white, one1]
      rfl
  have eS : p.specularFactor.any (arrayEq · defaultScale) = true → optItem b!"specularFactor" (arrVal E p.specularFactor) = [specularPat] := by
    intro hx
    cases hy : p.specularFactor with
    | none => rw [hy] at hx; cases hx
    | some x =>
      rw [hy, Option.any_some] at hx
      rw [all_ones (by decide +kernel) (by decide +kernel) (h.specularFactor x hy) hx]
      simp [arrVal, defaultScale, one1]
      rfl
  -- the text at first
  have f0 := print_framed (optMember b!"diffuseFactor" (arrVal E p.diffuseFactor) ++ (optMember b!"diffuseTexture" oA ++
    (optMember b!"specularFactor" (arrVal E p.specularFactor) ++ (optMember b!"glossinessFactor" (p.glossinessFactor.map fun x => .num (E.io.fmt x)) ++
    (optMember b!"specularGlossinessTexture" oB ++ [])))))
  generalize (JVal.obj (optMember b!"diffuseFactor" (arrVal E p.diffuseFactor) ++ (optMember b!"diffuseTexture" oA ++
    (optMember b!"specularFactor" (arrVal E p.specularFactor) ++ (optMember b!"glossinessFactor" (p.glossinessFactor.map fun x => .num (E.io.fmt x)) ++
    (optMember b!"specularGlossinessTexture" oB ++ [])))))).print compact 0 = x0 at f0 ⊢
  rw [print_obj]
  simp only [List.map_append, List.append_nil] at f0 ⊢
  have ite_item : ∀ (k : Bytes) (b : Bool) (o : Option JVal), (optMember k (if b then none else o)).map memberText = if b then [] else optItem k o := by
    intro k b o
    cases b <;> rfl
  rw [ite_item, ite_item, ite_item]
  change Framed (optItem b!"diffuseFactor" (arrVal E p.diffuseFactor) ++ (optItem b!"diffuseTexture" oA ++
    (optItem b!"specularFactor" (arrVal E p.specularFactor) ++ (optItem b!"glossinessFactor" (p.glossinessFactor.map fun x => .num (E.io.fmt x)) ++
    (optItem b!"specularGlossinessTexture" oB))))) x0 at f0
  change _ = Except.ok (123 :: (joinC (_ ++ (optItem b!"diffuseTexture" oA ++ (_ ++ (_ ++ optItem b!"specularGlossinessTexture" oB)))) ++ [125]))
  generalize optItem b!"diffuseFactor" (arrVal E p.diffuseFactor) = D at *
  generalize optItem b!"diffuseTexture" oA = A at *
  generalize optItem b!"specularFactor" (arrVal E p.specularFactor) = S at *
  generalize optItem b!"glossinessFactor" (p.glossinessFactor.map fun x => .num (E.io.fmt x)) = G at *
  generalize optItem b!"specularGlossinessTexture" oB = B at *
  have sG : ∀ b : Bool, ∀ s ∈ (if b then [] else G), Solid s := by
    intro b s hs
    cases b
    · exact gS s hs
    · cases hs
  have sD : ∀ b : Bool, ∀ s ∈ (if b then [] else D), Solid s ∧ Avoids specularPat s := by
    intro b s hs
    cases b
    · exact dS s hs
    · cases hs
  have sS : ∀ b : Bool, ∀ s ∈ (if b then [] else S), Solid s := by
    intro b s hs
    cases b
    · exact (pG s hs).1
    · cases hs
  -- the glossiness
  generalize hx1 : (if p.glossinessFactor.any (·.feq f64one) then removeProperty b!"\"glossinessFactor\":1" x0 else x0) = x1
  have f1 : Framed (D ++ (A ++ (S ++ ((if p.glossinessFactor.any (·.feq f64one) then [] else G) ++ B)))) x1 := by
    rw [← hx1]
    by_cases hb : p.glossinessFactor.any (·.feq f64one) = true
    · rw [if_pos hb, if_pos hb]
      rw [eG hb] at f0
      have := remove_framed (p := glossPat) (a := D ++ A ++ S) (b := B) (t := x0) rfl ?_ ?_ (by simpa using f0)
      · rw [List.append_assoc, List.append_assoc] at this
        exact this
      · intro x hx
        simp only [List.mem_append] at hx
        rcases hx with ((hx | hx) | hx) | hx
        · exact (dG x hx).1
        · exact (sA x hx).1
        · exact (pG x hx).1
        · exact sB x hx
      · intro x hx
        simp only [List.mem_append] at hx
        rcases hx with (hx | hx) | hx
        · exact (dG x hx).2
        · exact (sA x hx).2.1 (hGone hb)
        · exact (pG x hx).2
    · rw [if_neg hb, if_neg hb]
      exact f0
  -- the diffuse factor
  generalize hx2 : (if p.diffuseFactor.any (arrayEq · white) then removeProperty b!"\"diffuseFactor\":[1,1,1,1]" x1 else x1) = x2
  have f2 : Framed ((if p.diffuseFactor.any (arrayEq · white) then [] else D) ++ (A ++ (S ++ ((if p.glossinessFactor.any (·.feq f64one) then [] else G) ++ B)))) x2 := by
    rw [← hx2]
    by_cases hb : p.diffuseFactor.any (arrayEq · white) = true
    · rw [if_pos hb, if_pos hb]
      rw [eD hb] at f1
      refine remove_framed (p := diffusePat) (a := []) (t := x1) rfl ?_ ?_ f1
      · intro x hx
        simp only [List.mem_append, List.not_mem_nil, false_or] at hx
        rcases hx with hx | hx | hx | hx
        · exact (sA x hx).1
        · exact (pG x hx).1
        · exact sG _ x hx
        · exact sB x hx
      · intro x hx
        cases hx
    · rw [if_neg hb, if_neg hb]
      exact f1
  -- the specular factor
  generalize hx3 : (if p.specularFactor.any (arrayEq · defaultScale) then removeProperty b!"\"specularFactor\":[1,1,1]" x2 else x2) = x3
  have f3 : Framed ((if p.diffuseFactor.any (arrayEq · white) then [] else D) ++ (A ++ ((if p.specularFactor.any (arrayEq · defaultScale) then [] else S) ++
      ((if p.glossinessFactor.any (·.feq f64one) then [] else G) ++ B)))) x3 := by
    rw [← hx3]
    by_cases hb : p.specularFactor.any (arrayEq · defaultScale) = true
    · rw [if_pos hb, if_pos hb]
      rw [eS hb] at f2
      have := remove_framed (p := specularPat) (a := (if p.diffuseFactor.any (arrayEq · white) then [] else D) ++ A)
        (b := (if p.glossinessFactor.any (·.feq f64one) then [] else G) ++ B) (t := x2) rfl ?_ ?_ (by simpa using f2)
      · rw [List.append_assoc] at this
        exact this
      · intro x hx
        simp only [List.mem_append] at hx
        rcases hx with (hx | hx) | hx | hx
        · exact (sD _ x hx).1
        · exact (sA x hx).1
        · exact sG _ x hx
        · exact sB x hx
      · intro x hx
        simp only [List.mem_append] at hx
        rcases hx with hx | hx
        · exact (sD _ x hx).2
        · exact (sA x hx).2.2 (hSones hb)
    · rw [if_neg hb, if_neg hb]
      exact f2
  have := sanitize_framed ?_ f3
  · rw [← this, ← hx3, ← hx2, ← hx1]
  · intro x hx
    simp only [List.mem_append] at hx
    rcases hx with hx | hx | hx | hx | hx
    · exact (sD _ x hx).1
    · exact (sA x hx).1
    · exact sS _ x hx
    · exact sG _ x hx
    · exact sB x hx

end Gltf
