/-
Properties C90 and C91: files with values of the wrong kind are refused, others are not, and members that the glTF
schema does not have are not looked at.
-/
import Verif.Lemmas.JKindDoc
import Verif.Props.JsonText
import Verif.Props.Schema

namespace Gltf

open Spec

theorem json_numbers {E : Env} (hio : E.io = goFloatIO) : ReadsNumbers E.io := by rw [hio]; exact go_numbers

/-- What follows after the JSON text was read. -/
theorem decode_json (E : DecEnv) {s : Source} {v : JVal} (hv : jsonOf s = .ok v) :
    ∃ bin pre r, (newDecoder s).Follows pre r ∧ decodeSource E s =
      match (documentC E.json).dec v {} with
      | .ok d => decodeRest E bin d r
      | .error e => ⟨.err e, [], r⟩ := by
  cases hh : headerOf s.data with
  | ok h =>
    obtain ⟨pre, r, h1, -, h2⟩ := decode_value E hh hv
    exact ⟨h.isSome, pre, r, h1, h2⟩
  | err e => unfold jsonOf at hv; rw [hh] at hv; cases hv
  | panic e => unfold jsonOf at hv; rw [hh] at hv; cases hv

/-! ### C90 -/

/-- C90: a file in which a value is of another kind than its place in the glTF schema asks for, and is not null, is refused. -/
theorem C90_refused (E : DecEnv) (hio : E.json.io = goFloatIO) (s : Source) (v : JVal) (hf : FileOf v s.data) (hd : DepthLe 10000 v)
    (hv : (∃ l, v = .obj l) ∨ ∃ l, v = .arr l) (hn : ¬ Fits gltfS v) : ∃ e, (decodeSource E s).result = .err e := by
  have hj := jsonOf_file hf hd hv
  obtain ⟨bin, pre, r, -, e⟩ := decode_json E hj
  rw [e]
  cases hr : (documentC E.json).dec v {} with
  | ok d => exact absurd (((document_follows (json_numbers hio)).ok v (jsonOf_valid hj).ok {}).1 ⟨d, hr⟩) hn
  | error e => exact ⟨e, rfl⟩

/-- C90: what is accepted starts with JSON whose values are of the right kinds. -/
theorem C90_only (E : DecEnv) (hio : E.json.io = goFloatIO) (s : Source) (doc : Document) (h : (decodeSource E s).result = .ok doc) :
    ∃ v, StartsWith true v (jsonPart s.data) ∧ Fits gltfS v := by
  obtain ⟨v, bin, d0, r, h1, h2, -, -⟩ := decodeSource_ok h
  exact ⟨v, jsonOf_sound h1, ((document_follows (json_numbers hio)).ok v (jsonOf_valid h1).ok {}).1 ⟨_, h2⟩⟩

theorem cons_dec_fst {α τ : Type} {name : Bytes} {f : FE α} {r : FC τ} {k : Bytes} {v : JVal} {t t' : α × τ} (hk : foldKey k ≠ foldKey name)
    (h : (FC.cons name f r).dec k v t = .ok t') : t'.1 = t.1 ∧ r.dec k v t.2 = .ok t'.2 := by
  simp only [FC.cons] at h
  rw [if_neg hk] at h
  cases hr : r.dec k v t.2 with
  | error e => rw [hr] at h; cases h
  | ok b => rw [hr] at h; cases h; exact ⟨rfl, rfl⟩

theorem cons_dec_snd {α τ : Type} {name : Bytes} {f : FE α} {r : FC τ} {k : Bytes} {v : JVal} {t t' : α × τ}
    (h : (FC.cons name f r).dec k v t = .ok t') : t'.2 = t.2 ∨ r.dec k v t.2 = .ok t'.2 := by
  simp only [FC.cons] at h
  split at h
  · cases hr : f.dec v t.1 with
    | error e => rw [hr] at h; cases h
    | ok b => rw [hr] at h; cases h; exact .inl rfl
  · cases hr : r.dec k v t.2 with
    | error e => rw [hr] at h; cases h
    | ok b => rw [hr] at h; cases h; exact .inr rfl

theorem decAll_keeps {τ β : Type} {fc : FC τ} (get : τ → β) : ∀ (ms : List (Bytes × JVal)),
    (∀ m ∈ ms, ∀ t t', fc.dec m.1 m.2 t = .ok t' → get t' = get t) → ∀ t t', fc.decAll ms t = .ok t' → get t' = get t
  | [], _, t, t', h => by cases h; rfl
  | (k, v) :: ms, hk, t, t', h => by
    simp only [FC.decAll] at h
    cases hr : fc.dec k v t with
    | error e => rw [hr] at h; cases h
    | ok t1 =>
      rw [hr] at h
      rw [decAll_keeps get ms (fun m hm => hk m (by simp [hm])) t1 t' h]
      exact hk (k, v) (by simp) t t1 hr

theorem struct_dec_obj {σ τ : Type} {f : σ → τ} {g : τ → σ} {fc : FC τ} {ms : List (Bytes × JVal)} {cur d : σ}
    (h : (JC.struct f g fc).dec (.obj ms) cur = .ok d) : ∃ t, fc.decAll ms (f cur) = .ok t ∧ d = g t := by
  simp only [JC.struct] at h
  cases hr : fc.decAll ms (f cur) with
  | error e => rw [hr] at h; cases h
  | ok t => rw [hr] at h; cases h; exact ⟨t, rfl, rfl⟩

/-- Without members for them there are no buffers and no images. -/
theorem document_no_files {E : Env} {ms : List (Bytes × JVal)} {d : Document} (h : (documentC E).dec (.obj ms) {} = .ok d)
    (hm : ∀ m ∈ ms, foldKey m.1 ≠ foldKey b!"buffers" ∧ foldKey m.1 ≠ foldKey b!"images") : d.buffers = [] ∧ d.images = [] := by
  unfold documentC at h
  obtain ⟨t, hr, rfl⟩ := struct_dec_obj h
  have hb := decAll_keeps (fun t => t.1) ms (fun m hm' t t' h => (cons_dec_fst (hm m hm').1 h).1) _ _ hr
  have hi := decAll_keeps (fun t => t.2.2.2.2.2.2.2.2.2.2.1) ms (fun m hm' t t' h => by
    have h := (cons_dec_fst (hm m hm').1 h).2
    have key : ∀ {α τ : Type} {name : Bytes} {f : FE α} {r : FC τ} {t t' : α × τ} {k : Bytes} {v : JVal} {β : Type} (get : τ → β),
        (FC.cons name f r).dec k v t = .ok t' → (r.dec k v t.2 = .ok t'.2 → get t'.2 = get t.2) → get t'.2 = get t.2 := by
      intro α τ name f r t t' k v β get h1 h2
      rcases cons_dec_snd h1 with h | h
      · rw [h]
      · exact h2 h
    refine key (fun t => t.2.2.2.2.2.2.2.2.1) h fun h => ?_
    refine key (fun t => t.2.2.2.2.2.2.2.1) h fun h => ?_
    refine key (fun t => t.2.2.2.2.2.2.1) h fun h => ?_
    refine key (fun t => t.2.2.2.2.2.1) h fun h => ?_
    refine key (fun t => t.2.2.2.2.1) h fun h => ?_
    refine key (fun t => t.2.2.2.1) h fun h => ?_
    refine key (fun t => t.2.2.1) h fun h => ?_
    refine key (fun t => t.2.1) h fun h => ?_
    refine key (fun t => t.1) h fun h => ?_
    exact (cons_dec_fst (hm m hm').2 h).1) _ _ hr
  exact ⟨hb, hi⟩

/-- C90: a file in which all values are of the right kinds is accepted, if it has no buffers and images that could be missing. -/
theorem C90_accepted (E : DecEnv) (hio : E.json.io = goFloatIO) (s : Source) (ms : List (Bytes × JVal)) (hf : FileOf (.obj ms) s.data)
    (hd : DepthLe 10000 (.obj ms)) (hn : Fits gltfS (.obj ms))
    (hm : ∀ m ∈ ms, ¬ SameFold m.1 b!"buffers" ∧ ¬ SameFold m.1 b!"images") : ∃ doc, (decodeSource E s).result = .ok doc := by
  have hj := jsonOf_file hf hd (.inl ⟨_, rfl⟩)
  obtain ⟨bin, pre, r, -, e⟩ := decode_json E hj
  obtain ⟨d, hr⟩ := ((document_follows (json_numbers hio)).ok _ (jsonOf_valid hj).ok {}).2 hn
  obtain ⟨hb, hi⟩ := document_no_files hr hm
  rw [e, hr]
  simp only
  unfold decodeRest
  rw [hb, hi]
  cases bin
  · exact ⟨_, rfl⟩
  · exact ⟨_, rfl⟩

/-! ### Examples for C90 -/

/-- The numbers are read as Go does. -/
def goDec : DecEnv := { witnessDec with json := { witnessDec.json with io := goFloatIO } }

/-- A text without white space is that of its value. -/
theorem compact_file {v : JVal} {t : Bytes} (hj : jsonOf { data := t } = .ok v) (he : t = v.print compact 0) : StartsWith false v t :=
  ⟨[], t, [], by simp [IsBlank], he ▸ print_text (L := compact) ⟨fun _ => by simp [compact, IsBlank], by simp [compact, IsBlank]⟩ _ (jsonOf_valid hj).ok 0,
    by simp⟩

/-- The mesh of a node should be a number. -/
def wrongKind : List (Bytes × JVal) := [(b!"nodes", .arr [.obj [(b!"mesh", .str b!"0")]])]

def wrongText : Bytes := b!"{\"nodes\":[{\"mesh\":\"0\"}]}"

theorem wrong_parses : jsonOf { data := wrongText } = .ok (.obj wrongKind) := rfl

theorem wrong_kind : ¬ Fits gltfS (.obj wrongKind) := by
  intro h
  have h1 := fits_obj.1 h _ (.head _) (b!"nodes", .list nodeS) (by simp) rfl
  have h2 := fits_list.1 h1 _ (.head _)
  have h3 := fits_obj.1 h2 _ (.head _) (b!"mesh", .int) (by simp) rfl
  exact nomatch h3

example : FileOf (.obj wrongKind) wrongText ∧ DepthLe 10000 (.obj wrongKind) ∧ ¬ Fits gltfS (.obj wrongKind) ∧ goDec.json.io = goFloatIO :=
  ⟨.inl (compact_file wrong_parses (by decide +kernel)), (jsonOf_valid wrong_parses).depth, wrong_kind, rfl⟩

/-- A number, `null` in place of an index, a name in another case, a surplus element, and a member that is not in the schema. -/
def rightKind : List (Bytes × JVal) :=
  [(b!"Nodes", .arr [.obj [(b!"mesh", .null), (b!"scale", .arr [.num b!"1.5", .num b!"2", .num b!"1e3", .bool true])]]), (b!"other", .num b!"1e999")]

def rightText : Bytes := b!"{\"Nodes\":[{\"mesh\":null,\"scale\":[1.5,2,1e3,true]}],\"other\":1e999}"

theorem right_parses : jsonOf { data := rightText } = .ok (.obj rightKind) := rfl

theorem right_kind : Fits gltfS (.obj rightKind) :=
  ((document_follows (E := goDec.json) go_numbers).ok _ (jsonOf_valid right_parses).ok {}).1 (by
    have : ((documentC goDec.json).dec (.obj rightKind) {}).isOk = true := by decide +kernel
    revert this
    cases (documentC goDec.json).dec (.obj rightKind) {} with
    | ok d => exact fun _ => ⟨d, rfl⟩
    | error e => exact nofun)

example : FileOf (.obj rightKind) rightText ∧ DepthLe 10000 (.obj rightKind) ∧ Fits gltfS (.obj rightKind) ∧
    ∀ m ∈ rightKind, ¬ SameFold m.1 b!"buffers" ∧ ¬ SameFold m.1 b!"images" :=
  ⟨.inl (compact_file right_parses (by decide +kernel)), (jsonOf_valid right_parses).depth, right_kind, by unfold SameFold; decide +kernel⟩

/-! ### C91 -/

/-- C91 for text files: the result of `Decode` and the files that it opens do not depend on members whose names differ by more than
case from those of the schema, wherever they are, nor on surplus elements of arrays with a fixed length. -/
theorem C91_text_partial (E : DecEnv) (hio : E.json.io = goFloatIO) (s1 s2 : Source) (ms ns : List (Bytes × JVal))
    (ha : Alike SameFold gltfS (.obj ms) (.obj ns)) (h1 : StartsWith false (.obj ms) s1.data) (h2 : StartsWith false (.obj ns) s2.data)
    (hd1 : DepthLe 10000 (.obj ms)) (hd2 : DepthLe 10000 (.obj ns)) :
    (decodeSource E s1).result = (decodeSource E s2).result ∧ (decodeSource E s1).opened = (decodeSource E s2).opened := by
  obtain ⟨_, r1, -, -, e1⟩ := decode_value E (headerOf_text (startsWith_notGlb h1)) (jsonOf_file (.inl h1) hd1 (.inl ⟨_, rfl⟩))
  obtain ⟨_, r2, -, -, e2⟩ := decode_value E (headerOf_text (startsWith_notGlb h2)) (jsonOf_file (.inl h2) hd2 (.inl ⟨_, rfl⟩))
  rw [e1, e2, (document_follows (json_numbers hio)).alike _ _ {} ha]
  cases (documentC E.json).dec (.obj ns) {} with
  | ok d =>
    refine decodeRest_unused E (fun l _ => ?_) r1 r2
    cases l <;> rfl
  | error e => exact ⟨rfl, rfl⟩

/-- C91 for GLB files with the same binary chunk, if the JSON text fills its chunk or every read returns a multiple of four bytes
(see C32). -/
theorem C91_glb_partial (E : DecEnv) (hio : E.json.io = goFloatIO) (s1 s2 : Source) (ms ns : List (Bytes × JVal))
    (ha : Alike SameFold gltfS (.obj ms) (.obj ns)) (hd1 : DepthLe 10000 (.obj ms)) (hd2 : DepthLe 10000 (.obj ns)) (bin : Option Bytes)
    (w1 t1 w2 t2 : Bytes) (hw1 : IsBlank w1) (hw2 : IsBlank w2) (ht1 : Text false (.value (.obj ms)) t1) (ht2 : Text false (.value (.obj ns)) t2)
    (h1 : IsGlb (w1 ++ t1) bin s1.data) (h2 : IsGlb (w2 ++ t2) bin s2.data) (hf : s1.fin = s2.fin)
    (ha1 : s1.Aligned ∨ (w1 ++ t1).length % 4 = 0) (ha2 : s2.Aligned ∨ (w2 ++ t2).length % 4 = 0) :
    (decodeSource E s1).result = (decodeSource E s2).result ∧ (decodeSource E s1).opened = (decodeSource E s2).opened := by
  obtain ⟨r1, c1, i1, e1, f1, hc1, d1⟩ := decode_glb_json E hd1 hw1 ht1 h1 ha1
  obtain ⟨r2, c2, i2, e2, f2, hc2, d2⟩ := decode_glb_json E hd2 hw2 ht2 h2 ha2
  have hc : c1 = c2 := by
    cases bin with
    | none => exact hc1.trans hc2.symm
    | some data => exact isChunk_inj hc1 hc2
  rw [d1, d2, (document_follows (json_numbers hio)).alike _ _ {} ha]
  cases (documentC E.json).dec (.obj ns) {} with
  | ok d =>
    have := decodeRest_congr ⟨e1.trans (hc.trans e2.symm), f1.trans (hf.trans f2.symm), i1, i2⟩ E true d
    exact ⟨this.1, this.2.1⟩
  | error e => exact ⟨rfl, rfl⟩

/-! ### Examples for C91 -/

/-- The same without what is not in the schema. -/
def plainKind : List (Bytes × JVal) :=
  [(b!"Nodes", .arr [.obj [(b!"mesh", .null), (b!"scale", .arr [.num b!"1.5", .num b!"2", .num b!"1e3"])]])]

def plainText : Bytes := b!"{\"Nodes\":[{\"mesh\":null,\"scale\":[1.5,2,1e3]}]}"

theorem plain_parses : jsonOf { data := plainText } = .ok (.obj plainKind) := rfl

theorem right_plain : Alike SameFold gltfS (.obj rightKind) (.obj plainKind) := by
  refine .both _ (b!"nodes", .list nodeS) _ _ _ _ (by simp) rfl rfl (.list _ _ _ rfl fun i v w hv hw => ?_)
    (.left _ _ _ _ ?_ (.refl _ _))
  · match i with
    | 0 =>
      cases hv; cases hw
      refine .both _ (b!"mesh", .int) _ _ _ _ (by simp) rfl rfl (.refl _ _)
        (.both _ (b!"scale", .vec 3 .num) _ _ _ _ (by simp) rfl rfl (.vec _ _ _ _ rfl fun i v w hv hw => ?_) (.refl _ _))
      have : some v = some w := hv.symm.trans hw
      cases this
      exact .refl _ _
    | i + 1 => cases hv
  · unfold SameFold
    have : ∀ k ∈ [b!"extensions", b!"extras", b!"extensionsUsed", b!"extensionsRequired", b!"accessors", b!"animations", b!"asset",
        b!"buffers", b!"bufferViews", b!"cameras", b!"images", b!"materials", b!"meshes", b!"nodes", b!"samplers", b!"scene", b!"scenes",
        b!"skins", b!"textures"], ¬ foldKey b!"other" = foldKey k := by decide +kernel
    intro f hf
    exact this f.1 (List.mem_map_of_mem (f := Prod.fst) hf)

example : Alike SameFold gltfS (.obj rightKind) (.obj plainKind) ∧ StartsWith false (.obj rightKind) rightText ∧
    StartsWith false (.obj plainKind) plainText ∧ (decodeSource goDec { data := plainText }).result.isErr = false :=
  ⟨right_plain, compact_file right_parses (by decide +kernel), compact_file plain_parses (by decide +kernel), by decide +kernel⟩

/-- C91 as it should be fails: a member whose name differs in case from that of the schema, and therefore is not in it, is taken for it. -/
theorem C91_full_fails : ∃ (ms ns : List (Bytes × JVal)) (t1 t2 : Bytes), Alike Eq gltfS (.obj ms) (.obj ns) ∧
    StartsWith false (.obj ms) t1 ∧ StartsWith false (.obj ns) t2 ∧ DepthLe 10000 (.obj ms) ∧ DepthLe 10000 (.obj ns) ∧
    ∃ d1 d2, (decodeSource goDec { data := t1 }).result = .ok d1 ∧ (decodeSource goDec { data := t2 }).result = .ok d2 ∧
      d1.scene = some 1 ∧ d2.scene = none := by
  have p1 : jsonOf { data := b!"{\"SCENE\":1}" } = .ok (.obj [(b!"SCENE", .num b!"1")]) := rfl
  have p2 : jsonOf { data := b!"{}" } = .ok (.obj []) := rfl
  refine ⟨_, _, b!"{\"SCENE\":1}", b!"{}", .left _ (b!"SCENE", .num b!"1") _ _ ?_ (.refl _ (.obj [])), compact_file p1 (by decide +kernel),
    compact_file p2 (by decide +kernel), (jsonOf_valid p1).depth, (jsonOf_valid p2).depth, _, _, rfl, rfl, rfl, rfl⟩
  have : ∀ k ∈ [b!"extensions", b!"extras", b!"extensionsUsed", b!"extensionsRequired", b!"accessors", b!"animations", b!"asset",
      b!"buffers", b!"bufferViews", b!"cameras", b!"images", b!"materials", b!"meshes", b!"nodes", b!"samplers", b!"scene", b!"scenes",
      b!"skins", b!"textures"], ¬ b!"SCENE" = k := by decide +kernel
  intro f hf
  exact this f.1 (List.mem_map_of_mem (f := Prod.fst) hf)

end Gltf
