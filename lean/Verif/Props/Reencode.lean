/-
Property C62: what was decoded can be encoded and decoded again.
-/
import Verif.Lemmas.TextFile
import Verif.Props.TextureTransform
import Verif.Props.Unlit

namespace Gltf

open Spec

/-! ### What Decode returns is valid -/

/-- The URIs of a document are UTF-8. -/
structure Spec.TextUris (doc : Document) : Prop where
  buffers : ∀ b, some b ∈ doc.buffers → IsUtf8 b.uri
  images : ∀ im, some im ∈ doc.images → IsUtf8 im.uri

/-- Every camera has a projection. -/
def Spec.CamerasComplete (doc : Document) : Prop := ∀ c, some c ∈ doc.cameras → c.perspective.isSome ∨ c.orthographic.isSome

theorem none_of {α : Type} {P : Option α → Prop} : ∀ o ∈ ([] : List (Option α)), P o := fun _ h => absurd h List.not_mem_nil

theorem documentFields_empty (r : Registry) (n : Nat) : DocumentFields r n {} :=
  ⟨{ buffers := none_of, extensions := extOkNil _ _, extras := .null _, extensionsUsed := fun _ h => absurd h List.not_mem_nil,
     extensionsRequired := fun _ h => absurd h List.not_mem_nil, accessors := none_of, animations := none_of,
     asset := ⟨extOkNil _ _, .null _, utf8Nil, utf8Nil, utf8Nil, utf8Nil⟩,
     bufferViews := none_of, cameras := none_of, images := none_of, materials := none_of, meshes := none_of, nodes := none_of,
     samplers := none_of, scene := by intro i hi; cases hi
     scenes := none_of, skins := none_of, textures := none_of }, none_of⟩

/-- C62, first half: every document that `Decode` returns has valid contents, as deep as the JSON that was read, if its cameras
have projections and its URIs are UTF-8 after they were percent-decoded; and no buffer or image is missing. -/
theorem C62_decoded_valid (E : DecEnv) (hp : FiniteParse E.json.io) (n : Nat) (hr : LawfulRegistry E.json.reg n) (s : Source) (doc : Document)
    (h : (decodeSource E s).result = .ok doc) (hd : NestedLe n s.data) (hc : CamerasComplete doc) (hu : TextUris doc) :
    DocumentOk E.json.reg n doc ∧ none ∉ doc.buffers ∧ none ∉ doc.images := by
  obtain ⟨v, bin, d0, r, h1, h2, h3, h4⟩ := decodeSource_ok h
  obtain ⟨k1, k2⟩ := documentC_sound hp hr v _ _ ⟨(jsonOf_valid h1).ok, hd v (jsonOf_sound h1)⟩ (documentFields_empty _ n) h2
  have hb := decodeRest_buffers h3 h4
  have hi := decodeRest_images h4
  refine ⟨?_, fun hn => ?_, fun hn => ?_⟩
  · have key : { doc with buffers := [], images := [] } = { d0 with buffers := [], images := [] } := by
      obtain ⟨bs, ims, first, rest, l, -, -, -, -, rfl⟩ := decodeRest_ok h4
      rfl
    have hcam : doc.cameras = d0.cameras := (congrArg Document.cameras key :)
    constructor
    case buffers =>
      intro o ho b hbo
      obtain ⟨b', b0, rfl, hb0, e⟩ := hb o ho
      cases hbo
      have := k1.buffers _ hb0 b0 rfl
      rw [e]
      exact ⟨this.extensions, this.extras, this.name, hu.buffers b ho, this.byteLength⟩
    case images =>
      intro o ho b hbo
      obtain ⟨b', b0, rfl, hb0, e⟩ := hi o ho
      cases hbo
      have := k1.images _ hb0 b0 rfl
      rw [e]
      exact ⟨this.extensions, this.extras, this.name, hu.images b ho, this.mimeType, this.bufferView⟩
    case cameras =>
      intro o ho c hco
      cases hco
      have := k2 _ (by rw [← hcam]; exact ho) c rfl
      exact ⟨this.extensions, this.extras, this.name, this.orthographic, this.perspective, hc c ho⟩
    case extensions => rw [(congrArg Document.extensions key :)]; exact k1.extensions
    case extras => rw [(congrArg Document.extras key :)]; exact k1.extras
    case extensionsUsed => rw [(congrArg Document.extensionsUsed key :)]; exact k1.extensionsUsed
    case extensionsRequired => rw [(congrArg Document.extensionsRequired key :)]; exact k1.extensionsRequired
    case accessors => rw [(congrArg Document.accessors key :)]; exact k1.accessors
    case animations => rw [(congrArg Document.animations key :)]; exact k1.animations
    case asset => rw [(congrArg Document.asset key :)]; exact k1.asset
    case bufferViews => rw [(congrArg Document.bufferViews key :)]; exact k1.bufferViews
    case materials => rw [(congrArg Document.materials key :)]; exact k1.materials
    case meshes => rw [(congrArg Document.meshes key :)]; exact k1.meshes
    case nodes => rw [(congrArg Document.nodes key :)]; exact k1.nodes
    case samplers => rw [(congrArg Document.samplers key :)]; exact k1.samplers
    case scene => rw [(congrArg Document.scene key :)]; exact k1.scene
    case scenes => rw [(congrArg Document.scenes key :)]; exact k1.scenes
    case skins => rw [(congrArg Document.skins key :)]; exact k1.skins
    case textures => rw [(congrArg Document.textures key :)]; exact k1.textures
  · obtain ⟨b, -, e, -⟩ := hb _ hn
    cases e
  · obtain ⟨b, -, e, -⟩ := hi _ hn
    cases e

/-- What is read is never deeper than the decoder allows. -/
theorem C62_depth (E : DecEnv) (s : Source) (doc : Document) (h : (decodeSource E s).result = .ok doc) :
    ∃ v, StartsWith true v (jsonPart s.data) ∧ DepthLe 10000 v := by
  obtain ⟨v, bin, d0, r, h1, -⟩ := decodeSource_ok h
  exact ⟨v, jsonOf_sound h1, (jsonOf_valid h1).depth⟩

/-! ### It can be encoded and decoded again -/

/-- The buffers have lengths, and URIs that are written and read unchanged. -/
def Spec.BuffersKept (doc : Document) : Prop := ∀ b, some b ∈ doc.buffers → 0 < b.byteLength ∧ UriKept b

theorem decoded_saveable {E : DecEnv} (hp : FiniteParse E.json.io) (hr : LawfulRegistry E.json.reg 9993) {s : Source} {doc : Document}
    (h : (decodeSource E s).result = .ok doc) (hd : NestedLe 9993 s.data) (hc : CamerasComplete doc) (hu : TextUris doc)
    (hb : BuffersKept doc) (bin : Bool) : Saveable E 9993 bin doc := by
  obtain ⟨h1, -, h3⟩ := C62_decoded_valid E hp 9993 hr s doc h hd hc hu
  obtain ⟨v, bin', d0, r, -, k2, k3, k4⟩ := decodeSource_ok h
  exact ⟨by decide, h1, decodeRest_stored' k3 (noData E.json k2) k4 hb bin, h3⟩

/-- C62 in part: a document that `Decode` returned can be encoded, as text and as GLB, and decoding the result gives the same
document with the same data. Missing: JSON nested more than 9993 deep, cameras without projection, buffers of negative length, and
URIs with special characters or line breaks; also GLB files of 4 GiB. The document is the same up to the defaults in `SameDocument`. -/
theorem C62_round_trip_partial (E : DecEnv) (hf : FloatLaws E.json.io) (hp : FiniteParse E.json.io) (hr : LawfulRegistry E.json.reg 9993)
    (s : Source) (doc : Document) (h : (decodeSource E s).result = .ok doc) (hd : NestedLe 9993 s.data)
    (hc : CamerasComplete doc) (hu : TextUris doc) (hb : BuffersKept doc)
    (hl : ∀ b, doc.buffers.head? = some (some b) → b.byteLength < 4294967296)
    (o : EncOpts) (h1 : IsBlank o.pre) (h2 : IsBlank o.indent) (fs : Option CreateFS) (hfs : ∀ f ∈ fs, Working f) :
    (encode E.json E.url o doc {} fs).result = .ok () ∧
    ((encode E.json E.url o doc {} fs).sink.out.length < 4294967296 ∨ o.asBinary = false →
      ∃ doc', decodeBytes E (encode E.json E.url o doc {} fs).sink.out = .ok doc' ∧ SameDocument o.asBinary doc doc') := by
  have hsv := decoded_saveable hp hr h hd hc hu hb
  have henc := C31_encodes E hf o 9993 doc (hsv _) hl {} rfl fs hfs
  refine ⟨henc, fun hlen => ?_⟩
  cases ho : o.asBinary with
  | false =>
    obtain ⟨doc', k1, k2, -⟩ := C39_round_trip_partial E hf o ho h1 h2 9993 doc (hsv false) fs henc
      { data := (encode E.json E.url o doc {} fs).sink.out } [] (by simp)
    exact ⟨doc', k1, k2⟩
  | true =>
    obtain ⟨doc', k1, k2⟩ := C31_glb_round_trip E hf o ho h1 h2 9993 doc (hsv true) fs henc (by rw [ho] at hlen; simpa using hlen)
      { data := (encode E.json E.url o doc {} fs).sink.out } rfl (.inl nofun)
    exact ⟨doc', k1, k2⟩

/-! ### The hypotheses -/

theorem parse_finite : ∀ s x, parseFloat s = some x → x.finite = true := by
  intro s x h
  unfold parseFloat at h
  split at h <;> exact nearest_finite h

/-- Numbers are read as finite numbers. -/
theorem C62_finite : FiniteParse goFloatIO ∧ FiniteParse exactFloatIO := ⟨parse_finite, parse_finite⟩

theorem lawful_nil (n : Nat) : LawfulRegistry [] n := fun _ _ h => by cases h

theorem lawful_register {r : Registry} {n : Nat} {key : Bytes} {f : JVal → Except Err (Except Err JVal)} (hr : LawfulRegistry r n)
    (hf : ∀ v, JsonOk v → DepthLe n v → ∀ x, f v = .ok x → ∃ w, x = .ok w ∧ JsonOk w ∧ DepthLe n w ∧ f w = .ok (.ok w)) :
    LawfulRegistry (r.register key f) n := by
  intro k g hg
  unfold Registry.query Registry.register at hg
  rw [List.lookup_cons] at hg
  split at hg
  · cases hg; exact hf
  · exact hr k g hg

theorem unlit_lawful (n : Nat) (hn : 0 < n) : ∀ v, JsonOk v → DepthLe n v → ∀ x, unlitExt v = .ok x →
    ∃ w, x = .ok w ∧ JsonOk w ∧ DepthLe n w ∧ unlitExt w = .ok (.ok w) := by
  intro v h1 h2 x h
  obtain ⟨m, rfl⟩ : ∃ m, n = m + 1 := ⟨n - 1, by omega⟩
  cases v with
  | obj ms =>
    obtain ⟨ms', k1, k2, -, k4⟩ := C61_unlit_members ms
    rw [k1] at h
    cases h
    have hmem : ∀ p ∈ ms', p ∈ ms := fun p hp => by
      obtain ⟨a, b, e, -⟩ := (k2 p.1 p.2).1 hp
      rw [e]; simp
    cases h1 with
    | obj _ j1 j2 =>
      cases h2 with
      | obj _ _ j3 =>
        exact ⟨_, rfl, .obj _ (fun p hp => j1 p (hmem p hp)) (fun p hp => j2 p (hmem p hp)), .obj _ _ fun p hp => j3 p (hmem p hp), k4⟩
  | null =>
    cases h
    exact ⟨_, rfl, .obj _ (by simp) (by simp), .obj _ _ (by simp), rfl⟩
  | _ => cases h

theorem transform_lawful {E : Env} (hg : GoText E.io) (n : Nat) (hn : 2 ≤ n) : ∀ v, JsonOk v → DepthLe n v → ∀ x, transformExt E v = .ok x →
    ∃ w, x = .ok w ∧ JsonOk w ∧ DepthLe n w ∧ transformExt E w = .ok (.ok w) := by
  intro v _ _ x h
  obtain ⟨w, k1, k2, k3, k4⟩ := transformExt_stable hg h
  exact ⟨w, k1, k2, depthLe_mono k3 hn, k4⟩

/-- The registry with texture transforms and unlit materials. -/
def twoExtensions (E : Env) : Registry :=
  (Registry.register [] b!"KHR_texture_transform" (transformExt E)).register b!"KHR_materials_unlit" unlitExt

/-- The hypotheses on the registry hold without extensions and with those for texture transforms and unlit materials. -/
theorem C62_lawful : LawfulRegistry [] 9993 ∧ LawfulRegistry (twoExtensions ⟨goFloatIO, []⟩) 9993 :=
  ⟨lawful_nil _, lawful_register (lawful_register (lawful_nil _) (transform_lawful go_text _ (by decide))) (unlit_lawful _ (by decide))⟩

/-- A text with an embedded buffer, an external buffer, an image, a node and a camera. -/
def sampleText : Bytes :=
  b!"{\"asset\":{\"version\":\"2.0\"},\"buffers\":[{\"byteLength\":3,\"uri\":\"data:application/octet-stream;base64,AQID\"}" ++
  b!",{\"byteLength\":2,\"uri\":\"a.bin\"}],\"images\":[{\"uri\":\"a.png\"}],\"nodes\":[{\"name\":\"n\",\"children\":[0]}]" ++
  b!",\"cameras\":[{\"perspective\":{\"yfov\":0,\"znear\":0}}],\"extras\":{\"a\":[null,{}]}} "

/-- What the hypotheses of `C62_round_trip_partial` say about the document. -/
def sampleCheck (d : Document) : Bool :=
  (d.buffers.all fun o => o.any fun b => 0 < b.byteLength && b.byteLength < 4294967296 &&
    (b.uri = octetPrefix ++ b!"AQID" || b.uri = b!"a.bin")) &&
  (d.images.all fun o => o.any fun im => im.uri = b!"a.png") &&
  (d.cameras.all fun o => o.any fun c => c.perspective.isSome) && d.buffers.length = 2 && d.cameras.length = 1

theorem sample_decodes : ∃ doc, (decodeSource witnessDec { data := sampleText }).result = .ok doc ∧ sampleCheck doc = true := by
  have h : (match decodeBytes witnessDec sampleText with | .ok d => sampleCheck d | _ => false) = true := by decide +kernel
  have e : decodeBytes witnessDec sampleText = (decodeSource witnessDec { data := sampleText }).result := rfl
  rw [← e]
  cases hd : decodeBytes witnessDec sampleText with
  | ok d => rw [hd] at h; exact ⟨d, rfl, h⟩
  | err e => rw [hd] at h; cases h
  | panic w => rw [hd] at h; cases h

theorem sample_depth : NestedLe 9993 sampleText := nestedLe_length (by decide +kernel)

/-- The hypotheses of `C62_round_trip_partial` hold for a text with all kinds of members. -/
example : ∃ doc, (decodeSource witnessDec { data := sampleText }).result = .ok doc ∧ NestedLe 9993 sampleText ∧
    CamerasComplete doc ∧ TextUris doc ∧ BuffersKept doc ∧ (∀ b, doc.buffers.head? = some (some b) → b.byteLength < 4294967296) ∧
    doc.buffers.length = 2 ∧ doc.cameras.length = 1 ∧ FiniteParse witnessDec.json.io ∧ LawfulRegistry witnessDec.json.reg 9993 := by
  obtain ⟨doc, h1, h2⟩ := sample_decodes
  simp only [sampleCheck, Bool.and_eq_true, List.all_eq_true, decide_eq_true_eq] at h2
  obtain ⟨⟨⟨⟨hb, hi⟩, hc⟩, l1⟩, l2⟩ := h2
  have buf : ∀ b, some b ∈ doc.buffers → (0 < b.byteLength ∧ b.byteLength < 4294967296) ∧ (b.uri = octetPrefix ++ b!"AQID" ∨ b.uri = b!"a.bin") :=
    fun b hm => by
      have := hb _ hm
      simpa only [Option.any_some, Bool.and_eq_true, decide_eq_true_eq, Bool.or_eq_true] using this
  refine ⟨doc, h1, sample_depth, fun c hm => .inl (by simpa using hc _ hm), ⟨fun b hm => ?_, fun im hm => ?_⟩, fun b hm => ⟨(buf b hm).1.1, ?_⟩, ?_, l1, l2,
    C62_finite.2, C62_lawful.1⟩
  · rcases (buf b hm).2 with e | e <;> rw [e] <;> exact utf8_ascii (by decide)
  · have : im.uri = b!"a.png" := by simpa only [Option.any_some, decide_eq_true_eq] using hi _ hm
    rw [this]; exact utf8_ascii (by decide)
  · rcases (buf b hm).2 with e | e
    · exact .inr (.inl ⟨b!"AQID", e, by decide, by decide⟩)
    · exact .inr (.inr (by rw [e]; exact plainName (by decide) (by decide) (by decide) (by unfold PlainChar; decide)))
  · intro b hm
    exact (buf b (List.mem_of_mem_head? hm)).1.2

/-! ### The full statement -/

/-- What `Encode` writes as text for what `Decode` returns. -/
def reencode (text : Bytes) : Res Bytes := do
  let doc ← decodeBytes witnessDec text
  let e := encode witnessEnv witnessUrl { asBinary := false } doc {} none
  e.result
  return e.sink.out

/-- The scale of the first node. -/
def firstScale (r : Res Document) : Option (List F64) :=
  match r with
  | .ok d => match d.nodes with
    | some n :: _ => some n.scale.toList
    | _ => none
  | _ => none

/-- C62 is false: a camera without projection is decoded but cannot be encoded; a scale of zero becomes a scale of one; and a URI
that is not UTF-8 after it was percent-decoded is replaced by another. -/
theorem C62_full_fails :
    ((decodeBytes witnessDec b!"{\"cameras\":[{}]}").isOk = true ∧ (reencode b!"{\"cameras\":[{}]}").isOk = false) ∧
    (firstScale (decodeBytes witnessDec b!"{\"nodes\":[{\"scale\":[0,0,0]}]}") = some [zero, zero, zero] ∧
      firstScale (reencode b!"{\"nodes\":[{\"scale\":[0,0,0]}]}" >>= decodeBytes witnessDec) = some [one, one, one]) ∧
    (firstImage (decodeBytes witnessDec b!"{\"images\":[{\"uri\":\"%FF.png\"}]}") = some [255, 46, 112, 110, 103] ∧
      firstImage (reencode b!"{\"images\":[{\"uri\":\"%FF.png\"}]}" >>= decodeBytes witnessDec) = some [239, 191, 189, 46, 112, 110, 103]) := by
  decide +kernel

end Gltf
