/-
Properties C66 and C88: the URIs of decoded buffers, and the files that are read for them.
-/
import Verif.Props.UpKept
import Verif.Props.Schema
import Verif.Props.SizeExact

namespace Gltf

open Spec

/-- A relative path without special characters and single dots that never leads above the directory. It may have segments `..`. -/
def Spec.UpPath (u : Bytes) : Prop :=
  ∃ cs, IsPath u cs ∧ (∀ c ∈ cs, c ≠ [] ∧ c ≠ b!"." ∧ ∀ x ∈ c, PlainChar x) ∧ NeverAbove cs

/-- How the URI of a buffer is read: data URIs and paths that lead up stay as they are, references with single dots are replaced by the
names they resolve to. -/
structure Spec.UriRead (u u' : Bytes) : Prop where
  empty : u = [] → u' = []
  octet : OctetUri u → u' = u
  resolved : ∀ name, Resolves u name → SingleDots u → u' = name
  up : UpPath u → u' = u

theorem sanitizeBuffer_uri {U : UrlLib} {b b' : Buffer} (h : sanitizeBuffer U (some b) = .ok b') : UriRead b.uri b'.uri := by
  have key : ∀ name, ¬ OctetUri b.uri → sanitizeURI U b.uri = some name → b'.uri = name := by
    intro name ho hs
    have he : b.isEmbeddedResource ≠ true := fun e => ho ((embedded_iff b).1 e)
    unfold sanitizeBuffer at h
    simp only [he, hs] at h
    cases h
    rfl
  refine ⟨fun e => key [] ?_ (by rw [e]; exact sanitize_nil U), fun ho => ?_, fun name hr hs => key name (resolves_not_octet hr) (sanitize_resolves U hr hs), ?_⟩
  · rw [e]
    rintro ⟨t, e⟩
    cases e
  · unfold sanitizeBuffer at h
    simp only [(embedded_iff b).2 ho, if_true] at h
    cases h
    rfl
  · rintro ⟨cs, hp, hc, hn⟩
    obtain ⟨-, ho, hU⟩ := up_facts hp hc hn
    exact key _ ho (hU U).2

/-- What `C66_reads` leaves open: the buffers that `Decode` returns are those of the JSON, in their order, and the URIs change only as
`UriRead` says. With a file system a file is opened for each buffer that has a URI and is not embedded, under the new URI. -/
theorem C66_uris (E : DecEnv) (s : Source) (v : JVal) (hf : FileOf v s.data) (hn : DepthLe 10000 v) (d : Document)
    (hrel : (gltfT false E.json.io E.json.reg).rel d v) (doc : Document) (h : (decodeSource E s).result = .ok doc) :
    doc.buffers.length = d.buffers.length ∧
    ∀ (i : Nat) (b : Buffer), d.buffers[i]? = some (some b) →
      ∃ b', doc.buffers[i]? = some (some b') ∧ b'.byteLength = b.byteLength ∧ UriRead b.uri b'.uri ∧
        (E.fsys.isSome = true → b'.uri ≠ [] → ¬ OctetUri b'.uri → b'.uri ∈ (decodeSource E s).opened) := by
  have hop := (C99_data E s doc h).2
  obtain ⟨v', bin, d0, r, h1, h2, h3, h4⟩ := decodeSource_ok h
  have hv : jsonOf s = .ok v := jsonOf_file hf hn (.inl (by obtain ⟨ms, e, _⟩ := hrel; exact ⟨ms, e⟩))
  rw [hv] at h1
  cases h1
  obtain ⟨d', e, hrel'⟩ := documentC_dec E.json v ⟨d, hrel⟩
  rw [h2] at e
  cases e
  have hsame := buffers_same hrel hrel'
  have hlen : d.buffers.length = d0.buffers.length := by
    have := congrArg List.length hsame
    simpa using this
  obtain ⟨bs, ims, first, rest, l, k1, k2, k3, k4, rfl⟩ := decodeRest_ok h4
  have k : Each (fun b b' => b' = { b with data := b'.data }) bs (first ++ l) := by
    rcases decodeFirst_shape h3 k3 with ⟨rfl, rfl⟩ | ⟨b, b', rfl, rfl, hb, _⟩
    · exact decodeBuffers_each k4
    · exact each_cons hb (decodeBuffers_each k4)
  have ke : Each (fun (x : Option Buffer) (y : Option Buffer) => ∃ b b', x = some b ∧ y = some b' ∧ b'.byteLength = b.byteLength ∧ UriRead b.uri b'.uri)
      d0.buffers ((first ++ l).map some) := by
    refine each_map (each_trans (mapRes_each k1) k ?_)
    intro a b c hab hbc
    obtain ⟨x, rfl, e⟩ := sanitizeBuffer_fields hab
    have := sanitizeBuffer_uri hab
    refine ⟨x, c, rfl, rfl, ?_, ?_⟩
    · rw [hbc, e]
    · rw [hbc]
      exact this
  refine ⟨by rw [hlen]; exact ke.1.symm, fun i b hb => ?_⟩
  have hi : i < d.buffers.length := (List.getElem?_eq_some_iff.1 hb).1
  have e0 := congrArg (fun l => l[i]?) hsame
  simp only [List.getElem?_map, hb, Option.map_some] at e0
  obtain ⟨x, hx⟩ : ∃ x, d0.buffers[i]? = some x := ⟨_, List.getElem?_eq_getElem (hlen ▸ hi)⟩
  obtain ⟨y, hy⟩ : ∃ y, ((first ++ l).map some)[i]? = some y := ⟨_, List.getElem?_eq_getElem (ke.1 ▸ hlen ▸ hi)⟩
  obtain ⟨b0, b', rfl, rfl, e1, e2⟩ := ke.2 i x y hx hy
  rw [hx] at e0
  simp only [Option.map_some, Option.some.injEq, Prod.mk.injEq] at e0
  refine ⟨b', hy, by rw [e1, e0.2], by rw [e0.1]; exact e2, fun hfs hne ho => ?_⟩
  rw [hop, if_pos hfs]
  unfold fileUris
  rw [List.mem_filter, List.mem_filterMap]
  exact ⟨⟨some b', List.mem_of_getElem? hy, rfl⟩, decide_eq_true ⟨hne, ho⟩⟩

/-- C88 is false of all files with segments that lead up, also for `Decode`: whenever it succeeds with a file system, a buffer whose URI
has such segments made it open a file under the whole URI, and the data of the buffer is from there. By `C88_up_kept` this is
not the name that the reference resolves to. -/
theorem C88_up_opened (E : DecEnv) (s : Source) (v : JVal) (hf : FileOf v s.data) (hn : DepthLe 10000 v) (d : Document)
    (hrel : (gltfT false E.json.io E.json.reg).rel d v) (doc : Document) (h : (decodeSource E s).result = .ok doc)
    (read : Bytes → Bytes × Option Err) (hr : E.fsys = some read) (i : Nat) (b : Buffer) (hb : d.buffers[i]? = some (some b)) (hu : UpPath b.uri) :
    b.uri ∈ (decodeSource E s).opened ∧ ∃ b' content, doc.buffers[i]? = some (some b') ∧ read b.uri = (content, none) ∧
      b'.data = content.take b.byteLength.toNat := by
  obtain ⟨b', h1, h2, h3, h4⟩ := (C66_uris E s v hf hn d hrel doc h).2 i b hb
  have hu' := h3.up hu
  obtain ⟨cs, hp, hc, hna⟩ := hu
  obtain ⟨hne, ho, -⟩ := up_facts hp hc hna
  rw [hu'] at h4
  refine ⟨h4 (by rw [hr]; rfl) hne ho, b', ?_⟩
  have hd := (C99_data E s doc h).1
  have hm := List.mem_of_getElem? h1
  obtain ⟨first, hfrom⟩ := allFrom_mem hd hm
  cases hfrom with
  | chunk _ _ _ _ hu => exact absurd (hu' ▸ hu) hne
  | embedded c t hu => exact absurd ⟨c :: t, (hu' ▸ hu).symm⟩ ho
  | file read' content _ _ hf hc _ hd =>
    rw [hr] at hf
    cases hf
    rw [hu'] at hc
    exact ⟨content, h1, hc, by rw [← h2]; exact hd⟩
  | noFile _ _ hf => rw [hr] at hf; cases hf

/-- Such a file: `a/../b.bin` is opened, not `b.bin`. -/
example : UpPath b!"a/../b.bin" ∧ FileOf (fileJson b!"a/../b.bin") (fileText b!"a/../b.bin") ∧ DepthLe 10000 (fileJson b!"a/../b.bin") ∧
    (gltfT false witnessEnv.io witnessEnv.reg).rel (fileDoc b!"a/../b.bin") (fileJson b!"a/../b.bin") ∧
    (decodeSource witnessDec { data := fileText b!"a/../b.bin" }).result.isOk = true ∧
    (decodeSource witnessDec { data := fileText b!"a/../b.bin" }).opened = [b!"a/../b.bin"] := by
  have hp := fileText_starts (uri := b!"a/../b.bin") rfl (by decide +kernel)
  refine ⟨⟨[b!"a", b!"..", b!"b.bin"], ⟨by simp, by decide, by decide⟩, ?_, ?_⟩, .inl hp.1, hp.2, fileJson_rel _ rfl, by decide +kernel, by decide +kernel⟩
  · unfold PlainChar; decide
  · rw [neverAbove_iff]; decide

end Gltf
