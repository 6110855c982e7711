/-
Property C54 for documents that were decoded.
-/
import Verif.Props.Reencode
import Verif.Props.Stability

namespace Gltf

open Spec

theorem kept_uris {doc : Document} (h : BuffersKept doc) : UrisKept doc.buffers := by
  intro b hb name hn
  rcases (h b hb).2 with e | ⟨t, e, -⟩ | e
  · exact absurd e (path_ne hn)
  · exact absurd ⟨44 :: t, by rw [e]; rfl⟩ (path_not_octet hn)
  · exact plain_name e hn

/-- C54 in part, for documents that were decoded from any stream: `Encode` succeeds, and decoding what it wrote and encoding the
result writes the same bytes, as text and as GLB. Missing: documents without version, and what is missing in C62. -/
theorem C54_decoded_partial (E : DecEnv) (hf : FloatLaws E.json.io) (hp : FiniteParse E.json.io) (hr : LawfulRegistry E.json.reg 9993)
    (s : Source) (doc : Document) (h : (decodeSource E s).result = .ok doc) (hd : NestedLe 9993 s.data)
    (hc : CamerasComplete doc) (hu : TextUris doc) (hb : BuffersKept doc)
    (hl : ∀ b, doc.buffers.head? = some (some b) → b.byteLength < 4294967296)
    (hv : doc.asset.version ≠ []) (hi : ∀ im, some im ∈ doc.images → ImageKept im)
    (o : EncOpts) (h1 : IsBlank o.pre) (h2 : IsBlank o.indent) (fs : Option CreateFS) (hfs : ∀ f ∈ fs, Working f) :
    (encode E.json E.url o doc {} fs).result = .ok () ∧
    ((encode E.json E.url o doc {} fs).sink.out.length < 4294967296 ∨ o.asBinary = false →
      ∃ doc', decodeBytes E (encode E.json E.url o doc {} fs).sink.out = .ok doc' ∧ (encode E.json E.url o doc' {} fs).result = .ok () ∧
        (encode E.json E.url o doc' {} fs).sink.out = (encode E.json E.url o doc {} fs).sink.out) := by
  have hsv := decoded_saveable hp hr h hd hc hu hb
  have henc := C31_encodes E hf o 9993 doc (hsv _) hl {} rfl fs hfs
  refine ⟨henc, fun hlen => ?_⟩
  have hi' : ∀ i ∈ doc.images, ∃ im, i = some im ∧ ImageKept im := by
    intro i him
    cases i with
    | none => exact absurd him (hsv o.asBinary).images
    | some im => exact ⟨im, rfl, hi im him⟩
  exact C54_stable_partial E hf o h1 h2 9993 doc (hsv _) hv (kept_uris hb) hi' fs henc
    (fun ho => hlen.resolve_right (by rw [ho]; simp)) { data := (encode E.json E.url o doc {} fs).sink.out } rfl (fun _ => nofun) fs hfs

/-- The further hypotheses hold for the text of the example for C62. -/
example : ∃ doc, (decodeSource witnessDec { data := sampleText }).result = .ok doc ∧ doc.asset.version ≠ [] ∧
    (∀ im, some im ∈ doc.images → ImageKept im) ∧ doc.images.length = 1 := by
  have h : (match decodeBytes witnessDec sampleText with
      | .ok d => decide (d.asset.version ≠ []) && d.images.all (fun o => o.any fun im => im.uri = b!"a.png") && decide (d.images.length = 1)
      | _ => false) = true := by decide +kernel
  have e : decodeBytes witnessDec sampleText = (decodeSource witnessDec { data := sampleText }).result := rfl
  rw [← e]
  cases hd : decodeBytes witnessDec sampleText with
  | err e => rw [hd] at h; cases h
  | panic w => rw [hd] at h; cases h
  | ok d =>
    rw [hd] at h
    simp only [Bool.and_eq_true, List.all_eq_true, decide_eq_true_eq] at h
    refine ⟨d, rfl, h.1.1, fun im hm => ?_, h.2⟩
    have : im.uri = b!"a.png" := by simpa only [Option.any_some, decide_eq_true_eq] using h.1.2 _ hm
    refine .inr (.inr (.inr ?_))
    rw [this]
    exact plainName (by decide) (by decide) (by decide) (by unfold PlainChar; decide)

end Gltf
