/-
Property C66: the URIs of decoded images.
-/
import Verif.Props.DecodedUris

namespace Gltf

open Spec

theorem segments_colon {u : Bytes} {cs : List Bytes} (hp : IsPath u cs) (hc : ∀ c ∈ cs, ∀ x ∈ c, x = 37 ∨ PlainChar x) : (58 : UInt8) ∉ u := by
  intro hm
  rw [hp.2.2] at hm
  rcases mem_intercalate hm with e | ⟨c, hcm, hx⟩
  · exact absurd e (by decide)
  · rcases hc c hcm _ hx with e | e
    · exact absurd e (by decide)
    · exact absurd e (by decide)

/-- The URI of an image is determined by the JSON. -/
theorem image_same {E : Env} {x y : Image} {v : JVal} (hx : (objT false (imageF E.io E.reg)).rel x v)
    (hy : (objT false (imageF E.io E.reg)).rel y v) : x.uri = y.uri := by
  obtain ⟨ms, rfl, hx⟩ := hx
  obtain ⟨_, e, hy⟩ := hy
  cases e
  refine objRel_same hx hy (f := opt b!"uri" (·.uri) strT (· = [])) (by simp [imageF]) (·.uri) ?_ ?_
  · intro v h1 h2
    replace h1 : v = .str x.uri := h1
    replace h2 : v = .str y.uri := h2
    rw [h1] at h2
    injection h2
  · intro h1 h2
    exact (show x.uri = [] from h1).trans (show y.uri = [] from h2).symm

theorem images_same {E : Env} {d d' : Document} {v : JVal} (h : (gltfT false E.io E.reg).rel d v) (h' : (gltfT false E.io E.reg).rel d' v) :
    d.images.map (Option.map (·.uri)) = d'.images.map (Option.map (·.uri)) := by
  obtain ⟨ms, rfl, h⟩ := h
  obtain ⟨_, e, h'⟩ := h'
  cases e
  refine objRel_same h h' (f := objectsF b!"images" (·.images) (objT false (imageF E.io E.reg))) (by simp [documentF])
    (fun d => d.images.map (Option.map (·.uri))) ?_ ?_
  · rintro v ⟨vs, rfl, h1⟩ ⟨vs', e, h2⟩
    cases e
    simp only at h1 h2 ⊢
    generalize d.images = l at *
    generalize d'.images = l' at *
    induction vs generalizing l l' with
    | nil =>
      rw [List.length_eq_zero_iff.1 h1.1, List.length_eq_zero_iff.1 h2.1]
    | cons v vs ih =>
      match l, l', h1, h2 with
      | a :: l, a' :: l', h1, h2 =>
        obtain ⟨⟨x, rfl, hx⟩, k1⟩ := each_cons_inv h1
        obtain ⟨⟨y, rfl, hy⟩, k2⟩ := each_cons_inv h2
        rw [List.map_cons, List.map_cons, ih l k1 l' k2]
        simp [image_same hx hy]
      | [], _, h1, _ => cases h1.1
      | _ :: _, [], _, h2 => cases h2.1
  · intro h1 h2
    rw [show d.images = [] from h1, show d'.images = [] from h2]

/-- How the URI of an image is read: data URIs of images and paths that lead up stay as they are, references with single dots are
replaced by the names they resolve to. -/
structure Spec.ImageUriRead (u u' : Bytes) : Prop where
  empty : u = [] → u' = []
  data : b!"data:image/png;base64" <+: u ∨ b!"data:image/jpeg;base64" <+: u → u' = u
  resolved : ∀ name, Resolves u name → SingleDots u → u' = name
  up : UpPath u → u' = u

theorem sanitizeImage_uri {U : UrlLib} {b b' : Image} (h : sanitizeImage U (some b) = .ok b') : ImageUriRead b.uri b'.uri := by
  have key : ∀ name, (58 : UInt8) ∉ b.uri → sanitizeURI U b.uri = some name → b'.uri = name := by
    intro name ho hs
    have he : b.isEmbeddedResource ≠ true := by
      intro e
      rcases (image_embedded_iff b).1 e with ⟨t, e⟩ | ⟨t, e⟩
      · rw [← e] at ho; simp at ho
      · rw [← e] at ho; simp at ho
    unfold sanitizeImage at h
    simp only [he, hs] at h
    cases h
    rfl
  refine ⟨fun e => key [] (by rw [e]; simp) (by rw [e]; exact sanitize_nil U), fun ho => ?_, fun name hr hs => key name ?_ (sanitize_resolves U hr hs), ?_⟩
  · unfold sanitizeImage at h
    simp only [(image_embedded_iff b).2 ho, if_true] at h
    cases h
    rfl
  · obtain ⟨cs, hp, hc, -⟩ := hr
    exact segments_colon hp fun c hm => (hc c hm).2
  · rintro ⟨cs, hp, hc, hn⟩
    exact key _ (segments_colon hp fun c hm x hx => .inr ((hc c hm).2.2 x hx)) ((up_facts hp hc hn).2.2 U).2

/-- What `C66_reads` leaves open for images: they are those of the JSON, in their order, and the URIs change only as `ImageUriRead`
says. -/
theorem C66_image_uris (E : DecEnv) (s : Source) (v : JVal) (hf : FileOf v s.data) (hn : DepthLe 10000 v) (d : Document)
    (hrel : (gltfT false E.json.io E.json.reg).rel d v) (doc : Document) (h : (decodeSource E s).result = .ok doc) :
    doc.images.length = d.images.length ∧
    ∀ (i : Nat) (b : Image), d.images[i]? = some (some b) → ∃ b', doc.images[i]? = some (some b') ∧ ImageUriRead b.uri b'.uri := by
  obtain ⟨v', bin, d0, r, h1, h2, h3, h4⟩ := decodeSource_ok h
  have hv : jsonOf s = .ok v := jsonOf_file hf hn (.inl (by obtain ⟨ms, e, _⟩ := hrel; exact ⟨ms, e⟩))
  rw [hv] at h1
  cases h1
  obtain ⟨d', e, hrel'⟩ := documentC_dec E.json v ⟨d, hrel⟩
  rw [h2] at e
  cases e
  have hsame := images_same hrel hrel'
  have hlen : d.images.length = d0.images.length := by
    have := congrArg List.length hsame
    simpa using this
  obtain ⟨bs, ims, first, rest, l, k1, k2, k3, k4, rfl⟩ := decodeRest_ok h4
  have ke : Each (fun (x : Option Image) (y : Option Image) => ∃ b b', x = some b ∧ y = some b' ∧ ImageUriRead b.uri b'.uri)
      d0.images (ims.map some) := by
    refine each_map ⟨(mapRes_each k2).1, fun i a b ha hb => ?_⟩
    have hab := (mapRes_each k2).2 i a b ha hb
    obtain ⟨x, rfl, e⟩ := sanitizeImage_fields hab
    exact ⟨x, b, rfl, rfl, sanitizeImage_uri hab⟩
  refine ⟨by rw [hlen]; exact ke.1.symm, fun i b hb => ?_⟩
  have hi : i < d.images.length := (List.getElem?_eq_some_iff.1 hb).1
  have e0 := congrArg (fun l => l[i]?) hsame
  simp only [List.getElem?_map, hb, Option.map_some] at e0
  obtain ⟨x, hx⟩ : ∃ x, d0.images[i]? = some x := ⟨_, List.getElem?_eq_getElem (hlen ▸ hi)⟩
  obtain ⟨y, hy⟩ : ∃ y, (ims.map some)[i]? = some y := ⟨_, List.getElem?_eq_getElem (ke.1 ▸ hlen ▸ hi)⟩
  obtain ⟨b0, b', rfl, rfl, e1⟩ := ke.2 i x y hx hy
  rw [hx] at e0
  simp only [Option.map_some, Option.some.injEq] at e0
  exact ⟨b', hy, by rw [e0]; exact e1⟩

/-- A file with two images. -/
def imagesText : Bytes := b!"{\"asset\":{\"version\":\"2.0\"},\"images\":[{\"uri\":\"./a/./b%20c.bin\"},{\"uri\":\"a/../b.bin\"}]}"

/-- Its JSON. -/
def imagesJson : JVal :=
  .obj [(b!"asset", .obj [(b!"version", .str b!"2.0")]), (b!"images", .arr [.obj [(b!"uri", .str b!"./a/./b%20c.bin")], .obj [(b!"uri", .str b!"a/../b.bin")]])]

/-- Its document. -/
def imagesDoc : Document := { images := [some { uri := b!"./a/./b%20c.bin" }, some { uri := b!"a/../b.bin" }] }

/-- The hypotheses hold for this file: the dots of the first URI are removed, the second stays as it is. -/
example : FileOf imagesJson imagesText ∧ DepthLe 10000 imagesJson ∧ (gltfT false witnessEnv.io witnessEnv.reg).rel imagesDoc imagesJson ∧
    (match (decodeSource witnessDec { data := imagesText }).result with
      | .ok d => d.images.map (Option.map (·.uri))
      | _ => []) = [some b!"a/b c.bin", some b!"a/../b.bin"] := by
  have hp : jsonOf { data := imagesText } = .ok imagesJson := rfl
  have hc : imagesText = imagesJson.print compact 0 := by decide +kernel
  have ht := print_text (L := compact) ⟨fun _ => by simp [compact, IsBlank], by simp [compact, IsBlank]⟩ _ (jsonOf_valid hp).ok 0
  refine ⟨.inl ⟨[], _, [], by simp [IsBlank], ht, by rw [hc]; simp⟩, (jsonOf_valid hp).depth, ?_, by decide +kernel⟩
  refine documentC_enc exact_laws false _ _ ?_ (show (documentC witnessEnv).enc imagesDoc = .ok imagesJson from rfl)
  simp only [objT, documentF, List.forall_mem_cons, List.not_mem_nil, false_implies, implies_true, and_true]
  simp [imagesDoc, objectsF, opt, req, listT, ptrT, extF, extrasF, nameF, indexF, imageF, assetF, strT, intT, versionT]

end Gltf
