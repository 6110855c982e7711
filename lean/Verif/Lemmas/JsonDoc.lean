/-
Round trip laws of the structs of gltf.go.
-/
import Verif.Lemmas.JsonField

namespace Gltf

open Spec

variable {E : Env}

theorem decAll_congr {τ : Type} {fc fc' : FC τ} (h : fc.dec = fc'.dec) (ms : List (Bytes × JVal)) (t : τ) :
    fc.decAll ms t = fc'.decAll ms t := by
  induction ms generalizing t with
  | nil => rfl
  | cons m ms ih =>
    simp only [FC.decAll, h]
    cases fc'.dec m.1 m.2 t with
    | error e => rfl
    | ok t => exact ih t

theorem cons_enc_congr {α τ τ' : Type} (name : Bytes) (f : FE α) {r : FC τ} {r' : FC τ'} {t : τ} {t' : τ'} (a : α)
    (h : r.enc t = r'.enc t') : (FC.cons name f r).enc (a, t) = (FC.cons name f r').enc (a, t') := by
  simp only [FC.cons, h]

theorem cons_enc_omitted {α τ : Type} (name : Bytes) (c : JC α) (r : FC τ) (a : α) (t : τ) :
    (FC.cons name (c.omitIf fun _ => true) r).enc (a, t) = r.enc t := by
  simp only [FC.cons, JC.omitIf, if_true]
  cases r.enc t <;> rfl

theorem assetC_law' (hf : FloatLaws E.io) (n : Nat) :
    (assetC' E).Law (n + 2) { version := b!"2.0" } (AssetOk E.reg n) id :=
  struct_law
    (cons_law (by by_names) (FE.Law.mono (ext_fe E n) (by omega)) <|
    (cons_law (by by_names) (FE.Law.mono (extras_fe hf n) (by omega)) <|
    (cons_law (by by_names) (FE.Law.mono (omitString_fe) (by omega)) <|
    (cons_law (by by_names) (FE.Law.mono (omitString_fe) (by omega)) <|
    (cons_law (by by_names) (FE.Law.mono (always_law (string_law 0 _)) (by omega)) <|
    (cons_law (by by_names) (FE.Law.mono (omitString_fe) (by omega)) <|
    nil_law (n + 1)))))))
    (by by_names) rfl (fun s h => ⟨h.extensions, h.extras, h.copyright, h.generator, h.version, h.minVersion, trivial⟩) (fun s => rfl)

/-- The members other than the version. -/
theorem assetMembers_law (hf : FloatLaws E.io) (n : Nat) :
    (FC.cons b!"extensions" E.ext <|
     FC.cons b!"extras" E.extras <|
     FC.cons b!"copyright" omitString <|
     FC.cons b!"generator" omitString <|
     FC.cons b!"version" (JC.string.omitIf fun _ => true) <|
     FC.cons b!"minVersion" omitString <|
     FC.nil).Law (n + 1) ([], .null, [], [], b!"2.0", [], ())
       (fun t => ExtOk E.reg n t.1 ∧ AnyOk n t.2.1 ∧ IsUtf8 t.2.2.1 ∧ IsUtf8 t.2.2.2.1 ∧ True ∧ IsUtf8 t.2.2.2.2.2.1 ∧ True)
       (fun t => (t.1, t.2.1, t.2.2.1, t.2.2.2.1, b!"2.0", t.2.2.2.2.2.1, ())) :=
  (cons_law (by by_names) (FE.Law.mono (ext_fe E n) (by omega)) <|
  (cons_law (by by_names) (FE.Law.mono (extras_fe hf n) (by omega)) <|
  (cons_law (by by_names) (FE.Law.mono (omitString_fe) (by omega)) <|
  (cons_law (by by_names) (FE.Law.mono (omitString_fe) (by omega)) <|
  (cons_law (by by_names) (FE.Law.mono (omitIf_law (ok := fun _ => True) (norm := fun _ => b!"2.0") (string_law 0 _) (fun _ _ _ => rfl) (fun _ _ h => (by cases h))) (by omega)) <|
  (cons_law (by by_names) (FE.Law.mono (omitString_fe) (by omega)) <|
  nil_law (n + 1)))))))

theorem assetC_law (hf : FloatLaws E.io) (n : Nat) (start : Asset) :
    (assetC E).Law (n + 2) start (AssetOk E.reg n) normAsset := by
  intro a ha
  by_cases hv : a.version = []
  · obtain ⟨ms, h1, h2, h3, h4, h5⟩ := assetMembers_law hf n (a.extensions, a.extras, a.copyright, a.generator, [], a.minVersion, ())
      ⟨ha.extensions, ha.extras, ha.copyright, ha.generator, trivial, ha.minVersion, trivial⟩
    rw [cons_enc_congr _ _ _ (cons_enc_congr _ _ _ (cons_enc_congr _ _ _ (cons_enc_congr _ _ _ (cons_enc_omitted _ _ _ _ _))))] at h1
    refine ⟨.obj ((b!"version", .str b!"2.0") :: ms), ?_, .obj _ ?_ ?_, .obj _ _ ?_, ?_⟩
    · simp only [assetC, hv, List.isEmpty_nil, if_true, assetMembers]
      have : ∀ {τ : Type} {r : FC τ} {t : τ}, r.enc t = .ok ms →
          (FC.cons b!"version" JC.string.always r).enc (b!"2.0", t) = .ok ((b!"version", .str b!"2.0") :: ms) := by
        intro τ r t h
        simp only [FC.cons, h]; rfl
      rw [this h1]; rfl
    · refine List.forall_mem_cons.2 ⟨utf8_ascii (by decide +kernel), fun m hm => utf8_ascii ?_⟩
      have : ([b!"extensions", b!"extras", b!"copyright", b!"generator", b!"version", b!"minVersion"] : List Bytes).all
        (fun n => n.all (· < 128)) = true := by decide +kernel
      simpa using List.all_eq_true.1 this _ (h2 m hm)
    · exact List.forall_mem_cons.2 ⟨.str _ (utf8_ascii (by decide +kernel)), h3⟩
    · exact List.forall_mem_cons.2 ⟨.str _ _, h4⟩
    · have hn : normAsset a = { a with version := b!"2.0" } := by simp [normAsset, hv]
      rw [hn]
      have h6 := (decAll_congr (fc := FC.cons b!"extensions" E.ext <| FC.cons b!"extras" E.extras <| FC.cons b!"copyright" omitString <|
        FC.cons b!"generator" omitString <| FC.cons b!"version" JC.string.always <| FC.cons b!"minVersion" omitString <| FC.nil) (by rfl) ms _).trans h5
      exact congrArg (Except.map _) h6
  · obtain ⟨v, h1, h2, h3, h4⟩ := assetC_law' hf n a ha
    refine ⟨v, ?_, h2, h3, ?_⟩
    · have : a.version.isEmpty = false := by simpa using hv
      simp only [assetC, this]
      exact h1
    · have hn : normAsset a = a := by simp [normAsset, hv]
      rw [hn]
      exact h4

theorem assetC_nonNull (E : Env) : (assetC E).NonNull := by
  intro a v h
  simp only [assetC] at h
  split at h
  · cases he : assetMembers E a with
    | error e => rw [he] at h; cases h
    | ok ms => rw [he] at h; cases h; intro h; cases h
  · exact struct_nonNull _ _ _ a v h

theorem sparseIndicesC_law (hf : FloatLaws E.io) (n : Nat) :
    (sparseIndicesC E).Law (n + 2) {} (SparseIndicesOk E.reg n) id :=
  struct_law
    (cons_law (by by_names) (FE.Law.mono (ext_fe E n) (by omega)) <|
    (cons_law (by by_names) (FE.Law.mono (extras_fe hf n) (by omega)) <|
    (cons_law (by by_names) (FE.Law.mono (always_law (int_law 0 _)) (by omega)) <|
    (cons_law (by by_names) (FE.Law.mono (omitInt_fe) (by omega)) <|
    (cons_law (by by_names) (FE.Law.mono (always_law (componentType_law 0 _)) (by omega)) <|
    nil_law (n + 1))))))
    (by by_names) rfl (fun s h => ⟨h.extensions, h.extras, h.bufferView, h.byteOffset, h.componentType, trivial⟩) (fun s => rfl)

theorem sparseIndicesC_nonNull (E : Env) : (sparseIndicesC E).NonNull := struct_nonNull _ _ _

theorem sparseValuesC_law (hf : FloatLaws E.io) (n : Nat) :
    (sparseValuesC E).Law (n + 2) {} (SparseValuesOk E.reg n) id :=
  struct_law
    (cons_law (by by_names) (FE.Law.mono (ext_fe E n) (by omega)) <|
    (cons_law (by by_names) (FE.Law.mono (extras_fe hf n) (by omega)) <|
    (cons_law (by by_names) (FE.Law.mono (always_law (int_law 0 _)) (by omega)) <|
    (cons_law (by by_names) (FE.Law.mono (omitInt_fe) (by omega)) <|
    nil_law (n + 1)))))
    (by by_names) rfl (fun s h => ⟨h.extensions, h.extras, h.bufferView, h.byteOffset, trivial⟩) (fun s => rfl)

theorem sparseValuesC_nonNull (E : Env) : (sparseValuesC E).NonNull := struct_nonNull _ _ _

theorem sparseC_law (hf : FloatLaws E.io) (n : Nat) :
    (sparseC E).Law (n + 3) {} (SparseOk E.reg n) id :=
  struct_law
    (cons_law (by by_names) (FE.Law.mono (ext_fe E n) (by omega)) <|
    (cons_law (by by_names) (FE.Law.mono (extras_fe hf n) (by omega)) <|
    (cons_law (by by_names) (FE.Law.mono (always_law (int_law 0 _)) (by omega)) <|
    (cons_law (by by_names) (FE.Law.mono (always_law (sparseIndicesC_law hf n)) (by omega)) <|
    (cons_law (by by_names) (FE.Law.mono (always_law (sparseValuesC_law hf n)) (by omega)) <|
    nil_law (n + 2))))))
    (by by_names) rfl (fun s h => ⟨h.extensions, h.extras, h.count, h.indices, h.values, trivial⟩) (fun s => rfl)

theorem sparseC_nonNull (E : Env) : (sparseC E).NonNull := struct_nonNull _ _ _

theorem accessorC_law (hf : FloatLaws E.io) (n : Nat) :
    (accessorC E).Law (n + 4) {} (AccessorOk E.reg n) id :=
  struct_law
    (cons_law (by by_names) (FE.Law.mono (ext_fe E n) (by omega)) <|
    (cons_law (by by_names) (FE.Law.mono (extras_fe hf n) (by omega)) <|
    (cons_law (by by_names) (FE.Law.mono (omitString_fe) (by omega)) <|
    (cons_law (by by_names) (FE.Law.mono (omitIndex_fe) (by omega)) <|
    (cons_law (by by_names) (FE.Law.mono (omitInt_fe) (by omega)) <|
    (cons_law (by by_names) (FE.Law.mono (always_law (componentType_law 0 _)) (by omega)) <|
    (cons_law (by by_names) (FE.Law.mono (omitBool_fe) (by omega)) <|
    (cons_law (by by_names) (FE.Law.mono (always_law (int_law 0 _)) (by omega)) <|
    (cons_law (by by_names) (FE.Law.mono (always_law (accessorType_law 0 _)) (by omega)) <|
    (cons_law (by by_names) (FE.Law.mono (floats_fe hf) (by omega)) <|
    (cons_law (by by_names) (FE.Law.mono (floats_fe hf) (by omega)) <|
    (cons_law (by by_names) (FE.Law.mono (opt_fe_id (sparseC_nonNull E) (sparseC_law hf n)) (by omega)) <|
    nil_law (n + 3)))))))))))))
    (by by_names) rfl (fun s h => ⟨h.extensions, h.extras, h.name, h.bufferView, h.byteOffset, h.componentType, trivial, h.count, h.type, h.max, h.min, h.sparse, trivial⟩) (fun s => rfl)

theorem accessorC_nonNull (E : Env) : (accessorC E).NonNull := struct_nonNull _ _ _

theorem bufferC_law (hf : FloatLaws E.io) (n : Nat) :
    (bufferC E).Law (n + 2) {} (BufferOk E.reg n) normBuffer :=
  struct_law
    (cons_law (by by_names) (FE.Law.mono (ext_fe E n) (by omega)) <|
    (cons_law (by by_names) (FE.Law.mono (extras_fe hf n) (by omega)) <|
    (cons_law (by by_names) (FE.Law.mono (omitString_fe) (by omega)) <|
    (cons_law (by by_names) (FE.Law.mono (omitString_fe) (by omega)) <|
    (cons_law (by by_names) (FE.Law.mono (always_law (int_law 0 _)) (by omega)) <|
    (skip_law [] <|
    nil_law (n + 1)))))))
    (by by_names) rfl (fun s h => ⟨h.extensions, h.extras, h.name, h.uri, h.byteLength, trivial⟩) (fun s => rfl)

theorem bufferC_nonNull (E : Env) : (bufferC E).NonNull := struct_nonNull _ _ _

theorem bufferViewC_law (hf : FloatLaws E.io) (n : Nat) :
    (bufferViewC E).Law (n + 2) {} (BufferViewOk E.reg n) id :=
  struct_law
    (cons_law (by by_names) (FE.Law.mono (ext_fe E n) (by omega)) <|
    (cons_law (by by_names) (FE.Law.mono (extras_fe hf n) (by omega)) <|
    (cons_law (by by_names) (FE.Law.mono (always_law (int_law 0 _)) (by omega)) <|
    (cons_law (by by_names) (FE.Law.mono (omitInt_fe) (by omega)) <|
    (cons_law (by by_names) (FE.Law.mono (always_law (int_law 0 _)) (by omega)) <|
    (cons_law (by by_names) (FE.Law.mono (omitInt_fe) (by omega)) <|
    (cons_law (by by_names) (FE.Law.mono (target_fe) (by omega)) <|
    (cons_law (by by_names) (FE.Law.mono (omitString_fe) (by omega)) <|
    nil_law (n + 1)))))))))
    (by by_names) rfl (fun s h => ⟨h.extensions, h.extras, h.buffer, h.byteOffset, h.byteLength, h.byteStride, trivial, h.name, trivial⟩) (fun s => rfl)

theorem bufferViewC_nonNull (E : Env) : (bufferViewC E).NonNull := struct_nonNull _ _ _

theorem sceneC_law (hf : FloatLaws E.io) (n : Nat) :
    (sceneC E).Law (n + 2) {} (SceneOk E.reg n) id :=
  struct_law
    (cons_law (by by_names) (FE.Law.mono (ext_fe E n) (by omega)) <|
    (cons_law (by by_names) (FE.Law.mono (extras_fe hf n) (by omega)) <|
    (cons_law (by by_names) (FE.Law.mono (omitString_fe) (by omega)) <|
    (cons_law (by by_names) (FE.Law.mono (omitInts_fe) (by omega)) <|
    nil_law (n + 1)))))
    (by by_names) rfl (fun s h => ⟨h.extensions, h.extras, h.name, h.nodes, trivial⟩) (fun s => rfl)

theorem sceneC_nonNull (E : Env) : (sceneC E).NonNull := struct_nonNull _ _ _

theorem nodeC_law' (hf : FloatLaws E.io) (n : Nat) :
    (nodeC' E).Law (n + 2) { «matrix» := defaultMatrix, rotation := defaultRotation, scale := defaultScale } (NodeOk E.reg n) normNode :=
  struct_law
    (cons_law (by by_names) (FE.Law.mono (matrix_fe hf) (by omega)) <|
    (cons_law (by by_names) (FE.Law.mono (rotation_fe hf) (by omega)) <|
    (cons_law (by by_names) (FE.Law.mono (scale_fe hf) (by omega)) <|
    (cons_law (by by_names) (FE.Law.mono (translation_fe hf) (by omega)) <|
    (cons_law (by by_names) (FE.Law.mono (ext_fe E n) (by omega)) <|
    (cons_law (by by_names) (FE.Law.mono (extras_fe hf n) (by omega)) <|
    (cons_law (by by_names) (FE.Law.mono (omitString_fe) (by omega)) <|
    (cons_law (by by_names) (FE.Law.mono (omitIndex_fe) (by omega)) <|
    (cons_law (by by_names) (FE.Law.mono (omitInts_fe) (by omega)) <|
    (cons_law (by by_names) (FE.Law.mono (omitIndex_fe) (by omega)) <|
    (cons_law (by by_names) (FE.Law.mono (omitIndex_fe) (by omega)) <|
    (cons_law (by by_names) (FE.Law.mono (floats_fe hf) (by omega)) <|
    nil_law (n + 1)))))))))))))
    (by by_names) rfl (fun s h => ⟨h.«matrix», h.rotation, h.scale, h.translation, h.extensions, h.extras, h.name, h.camera, h.children, h.skin, h.mesh, h.weights, trivial⟩) (fun s => rfl)

theorem nodeC_law (hf : FloatLaws E.io) (n : Nat) (start : Node) :
    (nodeC E).Law (n + 2) start (NodeOk E.reg n) normNode :=
  withDefault_law (nodeC_law' hf n) start

theorem nodeC_nonNull (E : Env) : (nodeC E).NonNull := withDefault_nonNull (struct_nonNull _ _ _)

theorem skinC_law (hf : FloatLaws E.io) (n : Nat) :
    (skinC E).Law (n + 2) {} (SkinOk E.reg n) id :=
  struct_law
    (cons_law (by by_names) (FE.Law.mono (ext_fe E n) (by omega)) <|
    (cons_law (by by_names) (FE.Law.mono (extras_fe hf n) (by omega)) <|
    (cons_law (by by_names) (FE.Law.mono (omitString_fe) (by omega)) <|
    (cons_law (by by_names) (FE.Law.mono (omitIndex_fe) (by omega)) <|
    (cons_law (by by_names) (FE.Law.mono (omitIndex_fe) (by omega)) <|
    (cons_law (by by_names) (FE.Law.mono (sliceInt_fe) (by omega)) <|
    nil_law (n + 1)))))))
    (by by_names) rfl (fun s h => ⟨h.extensions, h.extras, h.name, h.inverseBindMatrices, h.skeleton, h.joints, trivial⟩) (fun s => rfl)

theorem skinC_nonNull (E : Env) : (skinC E).NonNull := struct_nonNull _ _ _

theorem orthographicC_law (hf : FloatLaws E.io) (n : Nat) :
    (orthographicC E).Law (n + 2) {} (OrthographicOk E.reg n) id :=
  struct_law
    (cons_law (by by_names) (FE.Law.mono (ext_fe E n) (by omega)) <|
    (cons_law (by by_names) (FE.Law.mono (extras_fe hf n) (by omega)) <|
    (cons_law (by by_names) (FE.Law.mono (always_law (float_law hf 0 _)) (by omega)) <|
    (cons_law (by by_names) (FE.Law.mono (always_law (float_law hf 0 _)) (by omega)) <|
    (cons_law (by by_names) (FE.Law.mono (always_law (float_law hf 0 _)) (by omega)) <|
    (cons_law (by by_names) (FE.Law.mono (always_law (float_law hf 0 _)) (by omega)) <|
    nil_law (n + 1)))))))
    (by by_names) rfl (fun s h => ⟨h.extensions, h.extras, h.xmag, h.ymag, h.zfar, h.znear, trivial⟩) (fun s => rfl)

theorem orthographicC_nonNull (E : Env) : (orthographicC E).NonNull := struct_nonNull _ _ _

theorem perspectiveC_law (hf : FloatLaws E.io) (n : Nat) :
    (perspectiveC E).Law (n + 2) {} (PerspectiveOk E.reg n) id :=
  struct_law
    (cons_law (by by_names) (FE.Law.mono (ext_fe E n) (by omega)) <|
    (cons_law (by by_names) (FE.Law.mono (extras_fe hf n) (by omega)) <|
    (cons_law (by by_names) (FE.Law.mono (omitFloat_fe hf) (by omega)) <|
    (cons_law (by by_names) (FE.Law.mono (always_law (float_law hf 0 _)) (by omega)) <|
    (cons_law (by by_names) (FE.Law.mono (omitFloat_fe hf) (by omega)) <|
    (cons_law (by by_names) (FE.Law.mono (always_law (float_law hf 0 _)) (by omega)) <|
    nil_law (n + 1)))))))
    (by by_names) rfl (fun s h => ⟨h.extensions, h.extras, h.aspectRatio, h.yfov, h.zfar, h.znear, trivial⟩) (fun s => rfl)

theorem perspectiveC_nonNull (E : Env) : (perspectiveC E).NonNull := struct_nonNull _ _ _

theorem cameraC_law' (hf : FloatLaws E.io) (n : Nat) :
    (cameraC' E).Law (n + 3) {} (CameraOk E.reg n) id :=
  struct_law
    (cons_law (by by_names) (FE.Law.mono (ext_fe E n) (by omega)) <|
    (cons_law (by by_names) (FE.Law.mono (extras_fe hf n) (by omega)) <|
    (cons_law (by by_names) (FE.Law.mono (omitString_fe) (by omega)) <|
    (cons_law (by by_names) (FE.Law.mono (opt_fe_id (orthographicC_nonNull E) (orthographicC_law hf n)) (by omega)) <|
    (cons_law (by by_names) (FE.Law.mono (opt_fe_id (perspectiveC_nonNull E) (perspectiveC_law hf n)) (by omega)) <|
    nil_law (n + 2))))))
    (by by_names) rfl (fun s h => ⟨h.extensions, h.extras, h.name, h.orthographic, h.perspective, trivial⟩) (fun s => rfl)

/-- A member that is not a field is ignored. -/
def FC.Ignores {τ : Type} (fc : FC τ) (k : Bytes) : Prop := ∀ v t, fc.dec k v t = .ok t

theorem cons_ignores {α τ : Type} {name k : Bytes} {f : FE α} {r : FC τ} (h : foldKey k ≠ foldKey name) (hr : r.Ignores k) :
    (FC.cons name f r).Ignores k := by
  rintro v ⟨a, t⟩
  simp only [FC.cons, if_neg h, hr v t]; rfl

theorem nil_ignores (k : Bytes) : FC.nil.Ignores k := fun _ _ => rfl

theorem cameraC_law (hf : FloatLaws E.io) (n : Nat) (start : Camera) (hs : start = {}) :
    (cameraC E).Law (n + 3) start (CameraOk E.reg n) id := by
  intro c hc
  obtain ⟨v, h1, h2, h3, h4⟩ := cameraC_law' hf n c hc
  have hig : ∀ t ms, (cameraC' E).dec (.obj ((b!"type", .str t) :: ms)) {} = (cameraC' E).dec (.obj ms) {} := by
    intro t ms
    simp only [cameraC', JC.struct, FC.decAll]
    rw [cons_ignores (by decide +kernel) (cons_ignores (by decide +kernel) (cons_ignores (by decide +kernel)
      (cons_ignores (by decide +kernel) (cons_ignores (by decide +kernel) (nil_ignores _)))))]
    rfl
  have key : ∀ t : Bytes, IsUtf8 t → JsonOk (withType t v) ∧ DepthLe (n + 3) (withType t v) ∧ (cameraC E).dec (withType t v) start = .ok c := by
    intro t ht
    subst hs
    cases v with
    | obj ms =>
      cases h2 with
      | obj _ hu hw =>
        cases h3 with
        | obj _ _ hd =>
          refine ⟨.obj _ (List.forall_mem_cons.2 ⟨(show IsUtf8 b!"type" from utf8_ascii (by decide +kernel)), hu⟩) (List.forall_mem_cons.2 ⟨.str _ ht, hw⟩),
            .obj _ _ (List.forall_mem_cons.2 ⟨.str _ _, hd⟩), ?_⟩
          exact (hig t ms).trans h4
    | null => exact ⟨h2, h3, h4⟩
    | bool b => exact ⟨h2, h3, h4⟩
    | num l => exact ⟨h2, h3, h4⟩
    | str s => exact ⟨h2, h3, h4⟩
    | arr l => exact ⟨h2, h3, h4⟩
  cases hp : c.perspective.isSome with
  | true => exact ⟨withType b!"perspective" v, by simp only [cameraC, hp, if_true, h1]; rfl, key _ (utf8_ascii (by decide +kernel))⟩
  | false =>
    have ho : c.orthographic.isSome = true := by
      rcases hc.projection with h | h
      · rw [hp] at h; cases h
      · exact h
    exact ⟨withType b!"orthographic" v, by simp only [cameraC, hp, ho, if_true, h1]; rfl, key _ (utf8_ascii (by decide +kernel))⟩

theorem cameraC_nonNull (E : Env) : (cameraC E).NonNull := by
  intro a v h
  have key : ∀ t, ((cameraC' E).enc a).map (withType t) = .ok v → v ≠ .null := by
    intro t h
    cases he : (cameraC' E).enc a with
    | error e => rw [he] at h; cases h
    | ok w =>
      rw [he] at h; cases h
      have := struct_nonNull _ _ _ a w he
      cases w <;> first | exact absurd rfl this | (intro h; cases h)
  simp only [cameraC] at h
  split at h
  · exact key _ h
  · split at h
    · exact key _ h
    · cases h

theorem primitiveC_law (hf : FloatLaws E.io) (n : Nat) :
    (primitiveC E).Law (n + 3) {} (PrimitiveOk E.reg n) id :=
  struct_law
    (cons_law (by by_names) (FE.Law.mono (ext_fe E n) (by omega)) <|
    (cons_law (by by_names) (FE.Law.mono (extras_fe hf n) (by omega)) <|
    (cons_law (by by_names) (FE.Law.mono (always_law (attrs_law)) (by omega)) <|
    (cons_law (by by_names) (FE.Law.mono (omitIndex_fe) (by omega)) <|
    (cons_law (by by_names) (FE.Law.mono (omitIndex_fe) (by omega)) <|
    (cons_law (by by_names) (FE.Law.mono (primitiveMode_fe) (by omega)) <|
    (cons_law (by by_names) (FE.Law.mono (targets_fe) (by omega)) <|
    nil_law (n + 2))))))))
    (by by_names) rfl (fun s h => ⟨h.extensions, h.extras, h.attributes, h.indices, h.material, h.mode, h.targets, trivial⟩) (fun s => rfl)

theorem primitiveC_nonNull (E : Env) : (primitiveC E).NonNull := struct_nonNull _ _ _

theorem meshC_law (hf : FloatLaws E.io) (n : Nat) :
    (meshC E).Law (n + 5) {} (MeshOk E.reg n) id :=
  struct_law
    (cons_law (by by_names) (FE.Law.mono (ext_fe E n) (by omega)) <|
    (cons_law (by by_names) (FE.Law.mono (extras_fe hf n) (by omega)) <|
    (cons_law (by by_names) (FE.Law.mono (omitString_fe) (by omega)) <|
    (cons_law (by by_names) (FE.Law.mono (slice_fe_id (primitiveC_nonNull E) (primitiveC_law hf n)) (by omega)) <|
    (cons_law (by by_names) (FE.Law.mono (floats_fe hf) (by omega)) <|
    nil_law (n + 4))))))
    (by by_names) rfl (fun s h => ⟨h.extensions, h.extras, h.name, h.primitives, h.weights, trivial⟩) (fun s => rfl)

theorem meshC_nonNull (E : Env) : (meshC E).NonNull := struct_nonNull _ _ _

theorem normalTextureC_law' (hf : FloatLaws E.io) (n : Nat) :
    (normalTextureC' E).Law (n + 2) { scale := some f64one } (NormalTextureOk E.reg n) normNormalTexture :=
  struct_law
    (cons_law (by by_names) (FE.Law.mono (ext_fe E n) (by omega)) <|
    (cons_law (by by_names) (FE.Law.mono (extras_fe hf n) (by omega)) <|
    (cons_law (by by_names) (FE.Law.mono (omitIndex_fe) (by omega)) <|
    (cons_law (by by_names) (FE.Law.mono (omitInt_fe) (by omega)) <|
    (cons_law (by by_names) (FE.Law.mono (omitOne_fe hf) (by omega)) <|
    nil_law (n + 1))))))
    (by by_names) rfl (fun s h => ⟨h.extensions, h.extras, h.index, h.texCoord, h.scale, trivial⟩) (fun s => rfl)

theorem normalTextureC_law (hf : FloatLaws E.io) (n : Nat) (start : NormalTexture) :
    (normalTextureC E).Law (n + 2) start (NormalTextureOk E.reg n) normNormalTexture :=
  withDefault_law (normalTextureC_law' hf n) start

theorem normalTextureC_nonNull (E : Env) : (normalTextureC E).NonNull := withDefault_nonNull (struct_nonNull _ _ _)

theorem occlusionTextureC_law' (hf : FloatLaws E.io) (n : Nat) :
    (occlusionTextureC' E).Law (n + 2) { strength := some f64one } (OcclusionTextureOk E.reg n) normOcclusionTexture :=
  struct_law
    (cons_law (by by_names) (FE.Law.mono (ext_fe E n) (by omega)) <|
    (cons_law (by by_names) (FE.Law.mono (extras_fe hf n) (by omega)) <|
    (cons_law (by by_names) (FE.Law.mono (omitIndex_fe) (by omega)) <|
    (cons_law (by by_names) (FE.Law.mono (omitInt_fe) (by omega)) <|
    (cons_law (by by_names) (FE.Law.mono (omitOne_fe hf) (by omega)) <|
    nil_law (n + 1))))))
    (by by_names) rfl (fun s h => ⟨h.extensions, h.extras, h.index, h.texCoord, h.strength, trivial⟩) (fun s => rfl)

theorem occlusionTextureC_law (hf : FloatLaws E.io) (n : Nat) (start : OcclusionTexture) :
    (occlusionTextureC E).Law (n + 2) start (OcclusionTextureOk E.reg n) normOcclusionTexture :=
  withDefault_law (occlusionTextureC_law' hf n) start

theorem occlusionTextureC_nonNull (E : Env) : (occlusionTextureC E).NonNull := withDefault_nonNull (struct_nonNull _ _ _)

theorem textureInfoC_law (hf : FloatLaws E.io) (n : Nat) :
    (textureInfoC E).Law (n + 2) {} (TextureInfoOk E.reg n) id :=
  struct_law
    (cons_law (by by_names) (FE.Law.mono (ext_fe E n) (by omega)) <|
    (cons_law (by by_names) (FE.Law.mono (extras_fe hf n) (by omega)) <|
    (cons_law (by by_names) (FE.Law.mono (always_law (int_law 0 _)) (by omega)) <|
    (cons_law (by by_names) (FE.Law.mono (omitInt_fe) (by omega)) <|
    nil_law (n + 1)))))
    (by by_names) rfl (fun s h => ⟨h.extensions, h.extras, h.index, h.texCoord, trivial⟩) (fun s => rfl)

theorem textureInfoC_nonNull (E : Env) : (textureInfoC E).NonNull := struct_nonNull _ _ _

theorem pbrC_law' (hf : FloatLaws E.io) (n : Nat) :
    (pbrC' E).Law (n + 3) { baseColorFactor := some white, metallicFactor := some f64one, roughnessFactor := some f64one } (PBRMetallicRoughnessOk E.reg n) normPBR :=
  struct_law
    (cons_law (by by_names) (FE.Law.mono (ext_fe E n) (by omega)) <|
    (cons_law (by by_names) (FE.Law.mono (extras_fe hf n) (by omega)) <|
    (cons_law (by by_names) (FE.Law.mono (baseColorFactor_fe hf) (by omega)) <|
    (cons_law (by by_names) (FE.Law.mono (opt_fe_id (textureInfoC_nonNull E) (textureInfoC_law hf n)) (by omega)) <|
    (cons_law (by by_names) (FE.Law.mono (omitOne_fe hf) (by omega)) <|
    (cons_law (by by_names) (FE.Law.mono (omitOne_fe hf) (by omega)) <|
    (cons_law (by by_names) (FE.Law.mono (opt_fe_id (textureInfoC_nonNull E) (textureInfoC_law hf n)) (by omega)) <|
    nil_law (n + 2))))))))
    (by by_names) rfl (fun s h => ⟨h.extensions, h.extras, h.baseColorFactor, h.baseColorTexture, h.metallicFactor, h.roughnessFactor, h.metallicRoughnessTexture, trivial⟩) (fun s => rfl)

theorem pbrC_law (hf : FloatLaws E.io) (n : Nat) (start : PBRMetallicRoughness) :
    (pbrC E).Law (n + 3) start (PBRMetallicRoughnessOk E.reg n) normPBR :=
  withDefault_law (pbrC_law' hf n) start

theorem pbrC_nonNull (E : Env) : (pbrC E).NonNull := withDefault_nonNull (struct_nonNull _ _ _)

theorem materialC_law' (hf : FloatLaws E.io) (n : Nat) :
    (materialC' E).Law (n + 4) { alphaCutoff := some f64half } (MaterialOk E.reg n) normMaterial :=
  struct_law
    (cons_law (by by_names) (FE.Law.mono (emissiveFactor_fe hf) (by omega)) <|
    (cons_law (by by_names) (FE.Law.mono (omitHalf_fe hf) (by omega)) <|
    (cons_law (by by_names) (FE.Law.mono (ext_fe E n) (by omega)) <|
    (cons_law (by by_names) (FE.Law.mono (extras_fe hf n) (by omega)) <|
    (cons_law (by by_names) (FE.Law.mono (omitString_fe) (by omega)) <|
    (cons_law (by by_names) (FE.Law.mono (opt_fe (pbrC_nonNull E) (pbrC_law hf n _)) (by omega)) <|
    (cons_law (by by_names) (FE.Law.mono (opt_fe (normalTextureC_nonNull E) (normalTextureC_law hf n _)) (by omega)) <|
    (cons_law (by by_names) (FE.Law.mono (opt_fe (occlusionTextureC_nonNull E) (occlusionTextureC_law hf n _)) (by omega)) <|
    (cons_law (by by_names) (FE.Law.mono (opt_fe_id (textureInfoC_nonNull E) (textureInfoC_law hf n)) (by omega)) <|
    (cons_law (by by_names) (FE.Law.mono (alphaMode_fe) (by omega)) <|
    (cons_law (by by_names) (FE.Law.mono (omitBool_fe) (by omega)) <|
    nil_law (n + 3))))))))))))
    (by by_names) rfl (fun s h => ⟨h.emissiveFactor, h.alphaCutoff, h.extensions, h.extras, h.name, h.pbrMetallicRoughness, h.normalTexture, h.occlusionTexture, h.emissiveTexture, h.alphaMode, trivial, trivial⟩) (fun s => rfl)

theorem materialC_law (hf : FloatLaws E.io) (n : Nat) (start : Material) :
    (materialC E).Law (n + 4) start (MaterialOk E.reg n) normMaterial :=
  withDefault_law (materialC_law' hf n) start

theorem materialC_nonNull (E : Env) : (materialC E).NonNull := withDefault_nonNull (struct_nonNull _ _ _)

theorem textureC_law (hf : FloatLaws E.io) (n : Nat) :
    (textureC E).Law (n + 2) {} (TextureOk E.reg n) id :=
  struct_law
    (cons_law (by by_names) (FE.Law.mono (ext_fe E n) (by omega)) <|
    (cons_law (by by_names) (FE.Law.mono (extras_fe hf n) (by omega)) <|
    (cons_law (by by_names) (FE.Law.mono (omitString_fe) (by omega)) <|
    (cons_law (by by_names) (FE.Law.mono (omitIndex_fe) (by omega)) <|
    (cons_law (by by_names) (FE.Law.mono (omitIndex_fe) (by omega)) <|
    nil_law (n + 1))))))
    (by by_names) rfl (fun s h => ⟨h.extensions, h.extras, h.name, h.sampler, h.source, trivial⟩) (fun s => rfl)

theorem textureC_nonNull (E : Env) : (textureC E).NonNull := struct_nonNull _ _ _

theorem samplerC_law (hf : FloatLaws E.io) (n : Nat) :
    (samplerC E).Law (n + 2) {} (SamplerOk E.reg n) id :=
  struct_law
    (cons_law (by by_names) (FE.Law.mono (ext_fe E n) (by omega)) <|
    (cons_law (by by_names) (FE.Law.mono (extras_fe hf n) (by omega)) <|
    (cons_law (by by_names) (FE.Law.mono (omitString_fe) (by omega)) <|
    (cons_law (by by_names) (FE.Law.mono (magFilter_fe) (by omega)) <|
    (cons_law (by by_names) (FE.Law.mono (minFilter_fe) (by omega)) <|
    (cons_law (by by_names) (FE.Law.mono (wrappingMode_fe) (by omega)) <|
    (cons_law (by by_names) (FE.Law.mono (wrappingMode_fe) (by omega)) <|
    nil_law (n + 1))))))))
    (by by_names) rfl (fun s h => ⟨h.extensions, h.extras, h.name, h.magFilter, h.minFilter, h.wrapS, h.wrapT, trivial⟩) (fun s => rfl)

theorem samplerC_nonNull (E : Env) : (samplerC E).NonNull := struct_nonNull _ _ _

theorem imageC_law (hf : FloatLaws E.io) (n : Nat) :
    (imageC E).Law (n + 2) {} (ImageOk E.reg n) id :=
  struct_law
    (cons_law (by by_names) (FE.Law.mono (ext_fe E n) (by omega)) <|
    (cons_law (by by_names) (FE.Law.mono (extras_fe hf n) (by omega)) <|
    (cons_law (by by_names) (FE.Law.mono (omitString_fe) (by omega)) <|
    (cons_law (by by_names) (FE.Law.mono (omitString_fe) (by omega)) <|
    (cons_law (by by_names) (FE.Law.mono (omitString_fe) (by omega)) <|
    (cons_law (by by_names) (FE.Law.mono (omitIndex_fe) (by omega)) <|
    nil_law (n + 1)))))))
    (by by_names) rfl (fun s h => ⟨h.extensions, h.extras, h.name, h.uri, h.mimeType, h.bufferView, trivial⟩) (fun s => rfl)

theorem imageC_nonNull (E : Env) : (imageC E).NonNull := struct_nonNull _ _ _

theorem animationSamplerC_law (hf : FloatLaws E.io) (n : Nat) :
    (animationSamplerC E).Law (n + 2) {} (AnimationSamplerOk E.reg n) id :=
  struct_law
    (cons_law (by by_names) (FE.Law.mono (ext_fe E n) (by omega)) <|
    (cons_law (by by_names) (FE.Law.mono (extras_fe hf n) (by omega)) <|
    (cons_law (by by_names) (FE.Law.mono (always_law (int_law 0 _)) (by omega)) <|
    (cons_law (by by_names) (FE.Law.mono (interpolation_fe) (by omega)) <|
    (cons_law (by by_names) (FE.Law.mono (always_law (int_law 0 _)) (by omega)) <|
    nil_law (n + 1))))))
    (by by_names) rfl (fun s h => ⟨h.extensions, h.extras, h.input, h.interpolation, h.output, trivial⟩) (fun s => rfl)

theorem animationSamplerC_nonNull (E : Env) : (animationSamplerC E).NonNull := struct_nonNull _ _ _

theorem animationChannelTargetC_law (hf : FloatLaws E.io) (n : Nat) :
    (animationChannelTargetC E).Law (n + 2) {} (AnimationChannelTargetOk E.reg n) id :=
  struct_law
    (cons_law (by by_names) (FE.Law.mono (ext_fe E n) (by omega)) <|
    (cons_law (by by_names) (FE.Law.mono (extras_fe hf n) (by omega)) <|
    (cons_law (by by_names) (FE.Law.mono (omitIndex_fe) (by omega)) <|
    (cons_law (by by_names) (FE.Law.mono (always_law (trsProperty_law 0 _)) (by omega)) <|
    nil_law (n + 1)))))
    (by by_names) rfl (fun s h => ⟨h.extensions, h.extras, h.node, h.path, trivial⟩) (fun s => rfl)

theorem animationChannelTargetC_nonNull (E : Env) : (animationChannelTargetC E).NonNull := struct_nonNull _ _ _

theorem animationChannelC_law (hf : FloatLaws E.io) (n : Nat) :
    (animationChannelC E).Law (n + 3) {} (AnimationChannelOk E.reg n) id :=
  struct_law
    (cons_law (by by_names) (FE.Law.mono (ext_fe E n) (by omega)) <|
    (cons_law (by by_names) (FE.Law.mono (extras_fe hf n) (by omega)) <|
    (cons_law (by by_names) (FE.Law.mono (always_law (int_law 0 _)) (by omega)) <|
    (cons_law (by by_names) (FE.Law.mono (always_law (animationChannelTargetC_law hf n)) (by omega)) <|
    nil_law (n + 2)))))
    (by by_names) rfl (fun s h => ⟨h.extensions, h.extras, h.sampler, h.target, trivial⟩) (fun s => rfl)

theorem animationChannelC_nonNull (E : Env) : (animationChannelC E).NonNull := struct_nonNull _ _ _

theorem animationC_law (hf : FloatLaws E.io) (n : Nat) :
    (animationC E).Law (n + 5) {} (AnimationOk E.reg n) id :=
  struct_law
    (cons_law (by by_names) (FE.Law.mono (ext_fe E n) (by omega)) <|
    (cons_law (by by_names) (FE.Law.mono (extras_fe hf n) (by omega)) <|
    (cons_law (by by_names) (FE.Law.mono (omitString_fe) (by omega)) <|
    (cons_law (by by_names) (FE.Law.mono (slice_fe_id (animationChannelC_nonNull E) (animationChannelC_law hf n)) (by omega)) <|
    (cons_law (by by_names) (FE.Law.mono (slice_fe_id (animationSamplerC_nonNull E) (animationSamplerC_law hf n)) (by omega)) <|
    nil_law (n + 4))))))
    (by by_names) rfl (fun s h => ⟨h.extensions, h.extras, h.name, h.channels, h.samplers, trivial⟩) (fun s => rfl)

theorem animationC_nonNull (E : Env) : (animationC E).NonNull := struct_nonNull _ _ _

theorem documentC_law (hf : FloatLaws E.io) (n : Nat) :
    (documentC E).Law (n + 7) {} (DocumentOk E.reg n) normDocument :=
  struct_law
    (cons_law (by by_names) (FE.Law.mono (ptrs_fe (bufferC_nonNull E) (bufferC_law hf n)) (by omega)) <|
    (cons_law (by by_names) (FE.Law.mono (ext_fe E n) (by omega)) <|
    (cons_law (by by_names) (FE.Law.mono (extras_fe hf n) (by omega)) <|
    (cons_law (by by_names) (FE.Law.mono (omitStrings_fe) (by omega)) <|
    (cons_law (by by_names) (FE.Law.mono (omitStrings_fe) (by omega)) <|
    (cons_law (by by_names) (FE.Law.mono (ptrs_fe_id (accessorC_nonNull E) (accessorC_law hf n)) (by omega)) <|
    (cons_law (by by_names) (FE.Law.mono (ptrs_fe_id (animationC_nonNull E) (animationC_law hf n)) (by omega)) <|
    (cons_law (by by_names) (FE.Law.mono (always_law (assetC_law hf n _)) (by omega)) <|
    (cons_law (by by_names) (FE.Law.mono (ptrs_fe_id (bufferViewC_nonNull E) (bufferViewC_law hf n)) (by omega)) <|
    (cons_law (by by_names) (FE.Law.mono (ptrs_fe_id (cameraC_nonNull E) (cameraC_law hf n _ rfl)) (by omega)) <|
    (cons_law (by by_names) (FE.Law.mono (ptrs_fe_id (imageC_nonNull E) (imageC_law hf n)) (by omega)) <|
    (cons_law (by by_names) (FE.Law.mono (ptrs_fe (materialC_nonNull E) (materialC_law hf n _)) (by omega)) <|
    (cons_law (by by_names) (FE.Law.mono (ptrs_fe_id (meshC_nonNull E) (meshC_law hf n)) (by omega)) <|
    (cons_law (by by_names) (FE.Law.mono (ptrs_fe (nodeC_nonNull E) (nodeC_law hf n _)) (by omega)) <|
    (cons_law (by by_names) (FE.Law.mono (ptrs_fe_id (samplerC_nonNull E) (samplerC_law hf n)) (by omega)) <|
    (cons_law (by by_names) (FE.Law.mono (omitIndex_fe) (by omega)) <|
    (cons_law (by by_names) (FE.Law.mono (ptrs_fe_id (sceneC_nonNull E) (sceneC_law hf n)) (by omega)) <|
    (cons_law (by by_names) (FE.Law.mono (ptrs_fe_id (skinC_nonNull E) (skinC_law hf n)) (by omega)) <|
    (cons_law (by by_names) (FE.Law.mono (ptrs_fe_id (textureC_nonNull E) (textureC_law hf n)) (by omega)) <|
    nil_law (n + 6))))))))))))))))))))
    (by by_names) rfl (fun s h => ⟨h.buffers, h.extensions, h.extras, h.extensionsUsed, h.extensionsRequired, h.accessors, h.animations, h.asset, h.bufferViews, h.cameras, h.images, h.materials, h.meshes, h.nodes, h.samplers, h.scene, h.scenes, h.skins, h.textures, trivial⟩) (fun s => rfl)

theorem documentC_nonNull (E : Env) : (documentC E).NonNull := struct_nonNull _ _ _

end Gltf
