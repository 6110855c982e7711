/-
Property C88: relative references are resolved to the names of files.
-/
import Verif.Props.Accept
import Verif.Props.Files

namespace Gltf

open Spec

theorem resolves_unique {u n n' : Bytes} (h : Resolves u n) (h' : Resolves u n') : n = n' := by
  obtain ⟨cs, hp, -, -, -, he⟩ := h
  obtain ⟨cs', hp', -, -, -, he'⟩ := h'
  have : cs' = cs := (path_unique hp').symm.trans (path_unique hp)
  subst this
  exact escaped_unique he he'

/-- A buffer whose URI is a reference to a file that can be read. -/
def HasFile (ref : Bytes → Bytes → Prop) (read : Bytes → Bytes × Option Err) (b : Buffer) : Prop :=
  0 < b.byteLength ∧ ∃ name content, ref b.uri name ∧ read name = (content, none)

/-- The statement of C88 for `Decode` of a text file and the references `ref`: if all buffers refer to files that can be read, they are
read, and every buffer has the data of the file that its URI refers to. -/
def ReadsRefs (ref : Bytes → Bytes → Prop) : Prop :=
  ∀ (E : DecEnv) (s : Source) (v : JVal) (d : Document) (read : Bytes → Bytes × Option Err), StartsWith false v s.data → DepthLe 10000 v →
    (gltfT false E.json.io E.json.reg).rel d v → E.fsys = some read → (∀ x ∈ d.buffers, ∃ b, x = some b ∧ HasFile ref read b) →
    ∃ d', (decodeSource E s).result = .ok d' ∧ ∀ (i : Nat) (b : Buffer) (name : Bytes), d.buffers[i]? = some (some b) → ref b.uri name →
      ∃ b', d'.buffers[i]? = some (some b') ∧ b'.data = (read name).1.take b.byteLength.toNat

/-- The statement of C88 for `Encode`: the data of every buffer is written to the file that its URI refers to. -/
def WritesRefs (ref : Bytes → Bytes → Prop) : Prop :=
  ∀ (E : Env) (U : UrlLib) (o : EncOpts) (doc : Document) (w : Sink) (fs : CreateFS), (encode E U o doc w (some fs)).result = .ok () →
    ∀ b name, some b ∈ doc.buffers → b.data ≠ [] → ref b.uri name →
      name ∈ (encode E U o doc w (some fs)).created ∧ WrittenAndClosed fs name

/-- References to files below the directory. -/
def AnyRef (u name : Bytes) : Prop := Resolves u name ∧ Local name ∧ ¬ OctetUri name

/-- The full statement of C88. -/
def C88_full : Prop := ReadsRefs AnyRef ∧ WritesRefs AnyRef

theorem hasFile_loads {read : Bytes → Bytes × Option Err} : ∀ {l : List (Option Buffer)},
    (∀ x ∈ l, ∃ b, x = some b ∧ HasFile FileRef read b) → ∃ l', AllLoad (some read) none l l'
  | [], _ => ⟨[], trivial⟩
  | x :: l, h => by
    obtain ⟨b, rfl, h0, name, content, hr, hc⟩ := h x (by simp)
    obtain ⟨l', hl⟩ := hasFile_loads (l := l) fun y hy => h y (by simp [hy])
    exact ⟨some _ :: l', h0, .file read content name hr rfl hc, hl⟩

theorem loads_get {read : Bytes → Bytes × Option Err} : ∀ {l l' m : List (Option Buffer)}, AllLoad (some read) none l l' →
    m.map (Option.map fun b => (b.uri, b.byteLength)) = l.map (Option.map fun b => (b.uri, b.byteLength)) →
    ∀ (i : Nat) (b : Buffer) (name : Bytes), m[i]? = some (some b) → FileRef b.uri name →
      ∃ b', l'[i]? = some (some b') ∧ b'.data = (read name).1.take b.byteLength.toNat
  | _, _, [], _, _, i, b, name, hb, _ => by simp at hb
  | [], _, _ :: _, _, e, _, _, _, _, _ => by simp at e
  | some c :: l, some c' :: l', x :: m, h, e, i, b, name, hb, hr => by
    obtain ⟨-, h1, h2⟩ := h
    rw [List.map_cons, List.map_cons] at e
    injection e with e1 e2
    cases i with
    | succ i => exact loads_get h2 e2 i b name hb hr
    | zero =>
      cases hb
      simp only [Option.map_some, Option.some.injEq, Prod.mk.injEq] at e1
      refine ⟨c', rfl, ?_⟩
      rw [e1.1] at hr
      rw [e1.2]
      cases h1 with
      | chunk data h => cases h
      | embedded t data h => exact absurd (octet_of h) (resolves_not_octet hr.1)
      | file read' content name' h3 h4 h5 =>
        cases h4
        cases resolves_unique hr.1 h3.1
        rw [h5]
      | noFile _ _ h => cases h
  | none :: _, _, _ :: _, h, _, _, _, _, _, _ => by cases ‹List (Option Buffer)› <;> exact h.elim
  | some _ :: _, [], _ :: _, h, _, _, _, _, _, _ => h.elim
  | some _ :: _, none :: _, _ :: _, h, _, _, _, _, _, _ => h.elim

/-- C88 for references whose only dot segments are single dots, no two of them next to each other. Missing: `..` and repeated
dots, see `C88_full_fails`. -/
theorem C88_resolved_partial : ReadsRefs FileRef ∧ WritesRefs FileRef := by
  constructor
  · intro E s v d read hf hn hrel hfs hall
    obtain ⟨bs, hl⟩ := hasFile_loads hall
    obtain ⟨d2, bs2, ims, h1, h2, h3, -⟩ := C81_text E s v hf hn ⟨d, bs, hrel, hfs ▸ hl⟩
    refine ⟨_, h1, fun i b name hb hr => ?_⟩
    rw [hfs] at h3
    exact loads_get h3 (buffers_same hrel h2) i b name hb hr
  · intro E U o doc w fs h b name hb hd hr
    obtain ⟨f', -, -, h3, h4⟩ := encodeBuffers_ok' (encode_buffers h)
    have hm := h4 b name hb hd ⟨resolves_ne hr.1, resolves_not_octet hr.1, sanitize_resolves U hr.1 hr.2.1⟩
    obtain ⟨k1, k2, k3, -⟩ := h3 name hm
    exact ⟨hm, k1, k2, k3⟩

/-- A file with one buffer and the given URI. -/
def fileText (uri : Bytes) : Bytes := b!"{\"buffers\":[{\"uri\":\"" ++ uri ++ b!"\",\"byteLength\":4}],\"asset\":{\"version\":\"2.0\"}}"

/-- Its JSON. -/
def fileJson (uri : Bytes) : JVal :=
  .obj [(b!"buffers", .arr [.obj [(b!"uri", .str uri), (b!"byteLength", .num b!"4")]]), (b!"asset", .obj [(b!"version", .str b!"2.0")])]

/-- Its document. -/
def fileDoc (uri : Bytes) : Document := { buffers := [some { byteLength := 4, uri }] }

/-- A directory with the file `b.bin`. -/
def oneFile (name : Bytes) : Bytes × Option Err := if name = b!"b.bin" then ([1, 2, 3, 4], none) else ([], some (.msg "file does not exist"))

theorem fileJson_rel (uri : Bytes) (hd : (documentC witnessEnv).enc (fileDoc uri) = .ok (fileJson uri)) :
    (gltfT false witnessEnv.io witnessEnv.reg).rel (fileDoc uri) (fileJson uri) := by
  refine documentC_enc exact_laws false _ _ ?_ hd
  have i0 : ∀ n : Int, n = 4 → IntOk n := by intro n hn; unfold IntOk; omega
  simp only [objT, documentF, List.forall_mem_cons, List.not_mem_nil, false_implies, implies_true, and_true]
  simp [fileDoc, objectsF, opt, req, listT, ptrT, extF, extrasF, nameF, indexF, bufferF, assetF, strT, intT, versionT, i0]

theorem fileText_starts {uri : Bytes} (hp : jsonOf { data := fileText uri } = .ok (fileJson uri))
    (hc : fileText uri = (fileJson uri).print compact 0) : StartsWith false (fileJson uri) (fileText uri) ∧ DepthLe 10000 (fileJson uri) := by
  have ht := print_text (L := compact) ⟨fun _ => by simp [compact, IsBlank], by simp [compact, IsBlank]⟩ _ (jsonOf_valid hp).ok 0
  exact ⟨⟨[], _, [], by simp [IsBlank], ht, by rw [hc]; simp⟩, (jsonOf_valid hp).depth⟩

theorem upRef : AnyRef b!"a/../b.bin" b!"b.bin" := by
  refine ⟨⟨[b!"a", b!"..", b!"b.bin"], ⟨by simp, by decide, by decide⟩, ?_, ?_, ⟨b!"b.bin", rfl, by decide⟩, escaped_self (by decide)⟩, ?_, ?_⟩
  · unfold PlainChar; decide
  · rw [neverAbove_iff]; decide
  · rw [← isLocal_iff]; decide
  · unfold OctetUri; decide

theorem dotRef : FileRef b!"./a/./b%20c.bin" b!"a/b c.bin" := by
  have hs : Escaped b!"a/b%20c.bin" b!"a/b c.bin" := .char (by decide) (.char (by decide) (.char (by decide)
    (.hex (x := 2) (y := 0) (.inl (by decide)) (.inl (by decide)) (by decide) (escaped_self (by decide)))))
  refine ⟨⟨[b!".", b!"a", b!".", b!"b%20c.bin"], ⟨by simp, by decide, by decide⟩, ?_, ?_, ⟨b!"b%20c.bin", rfl, by decide⟩, hs⟩, ?_, ?_, ?_⟩
  · unfold PlainChar; decide
  · rw [neverAbove_iff]; decide
  · refine ⟨[b!".", b!"a", b!".", b!"b%20c.bin"], ⟨by simp, by decide, by decide⟩, by decide, fun i => ?_⟩
    match i with
    | 0 | 1 | 2 | 3 => simp
    | i + 4 => simp
  · rw [← isLocal_iff]; decide
  · unfold OctetUri; decide

/-- C88 is false: `a/../b.bin` is not resolved to `b.bin`, neither by `Decode` nor by `Encode`. -/
theorem C88_full_fails : ¬ ReadsRefs AnyRef ∧ ¬ WritesRefs AnyRef := by
  constructor
  · intro h
    have hp := fileText_starts (uri := b!"a/../b.bin") rfl (by decide +kernel)
    obtain ⟨d', hd, -⟩ := h { witnessDec with fsys := some oneFile } { data := fileText b!"a/../b.bin" } _ _ oneFile hp.1 hp.2
      (fileJson_rel b!"a/../b.bin" rfl) rfl (by
        intro x hx
        rw [List.mem_singleton.1 hx]
        exact ⟨_, rfl, by decide, _, _, upRef, rfl⟩)
    have : (decodeSource { witnessDec with fsys := some oneFile } { data := fileText b!"a/../b.bin" }).result.isOk = false := by
      decide +kernel
    rw [hd] at this
    cases this
  · intro h
    have := h witnessEnv witnessUrl {} (externalDoc b!"a/../b.bin") {} emptyFS (by decide +kernel) _ _ (List.mem_singleton.2 rfl) (by simp) upRef
    have hc : (encode witnessEnv witnessUrl {} (externalDoc b!"a/../b.bin") {} (some emptyFS)).created = [b!"a/../b.bin"] := by decide +kernel
    rw [hc] at this
    exact absurd this.1 (by decide)

/-- Nor are two dots next to each other removed. -/
theorem C88_repeated_dots : Resolves b!"a/././b.bin" b!"a/b.bin" ∧
    (decodeSource witnessDec { data := fileText b!"a/././b.bin" }).opened = [b!"a/./b.bin"] ∧
    (encode witnessEnv witnessUrl {} (externalDoc b!"a/././b.bin") {} (some emptyFS)).created = [b!"a/./b.bin"] := by
  refine ⟨⟨[b!"a", b!".", b!".", b!"b.bin"], ⟨by simp, by decide, by decide⟩, ?_, ?_, ⟨b!"b.bin", rfl, by decide⟩, escaped_self (by decide)⟩,
    by decide +kernel, by decide +kernel⟩
  · unfold PlainChar; decide
  · rw [neverAbove_iff]; decide

/-- The hypotheses of C88 are met by `./a/./b%20c.bin`, which stands for `a/b c.bin`. -/
example : (∃ v d, StartsWith false v (fileText b!"./a/./b%20c.bin") ∧ DepthLe 10000 v ∧ (gltfT false witnessDec.json.io witnessDec.json.reg).rel d v ∧
      ∀ x ∈ d.buffers, ∃ b, x = some b ∧ HasFile FileRef (fun _ => ([0, 0, 0, 0], none)) b) ∧
    (encode witnessEnv witnessUrl {} (externalDoc b!"./a/./b%20c.bin") {} (some emptyFS)).result = .ok () := by
  have hp := fileText_starts (uri := b!"./a/./b%20c.bin") rfl (by decide +kernel)
  refine ⟨⟨_, _, hp.1, hp.2, fileJson_rel b!"./a/./b%20c.bin" rfl, ?_⟩, by decide +kernel⟩
  intro x hx
  rw [List.mem_singleton.1 hx]
  exact ⟨_, rfl, by decide, _, _, dotRef, rfl⟩

end Gltf
