/-
Property C56: the type of cameras.
-/
import Verif.Props.Buffers

namespace Gltf

open Spec

/-! ### C56 Cameras -/

theorem fc_cons_ok {α τ : Type} {name : Bytes} {f : FE α} {r : FC τ} {t : α × τ} {l : List (Bytes × JVal)}
    (h : (FC.cons name f r).enc t = .ok l) :
    ∃ v vs, f.enc t.1 = .ok v ∧ r.enc t.2 = .ok vs ∧ l = (match v with | some v => [(name, v)] | none => []) ++ vs := by
  simp only [FC.cons] at h
  cases h1 : f.enc t.1 with
  | error e => rw [h1] at h; cases h
  | ok v =>
    cases h2 : r.enc t.2 with
    | error e => rw [h1, h2] at h; cases h
    | ok vs =>
      rw [h1, h2] at h
      refine ⟨v, vs, rfl, rfl, ?_⟩
      cases v <;> cases h <;> rfl

/-- The cameras in the JSON of a document. -/
theorem documentC_cameras {E : Env} {d : Document} {v : JVal} (h : (documentC E).enc d = .ok v) :
    ∃ ms xs, v = .obj ms ∧ encList (JC.ptr (cameraC E)) d.cameras = .ok xs ∧ (d.cameras ≠ [] → (b!"cameras", .arr xs) ∈ ms) := by
  obtain ⟨ms, rfl⟩ := documentC_obj h
  unfold documentC JC.struct at h
  simp only at h
  generalize hx : (FC.enc _ _) = x at h
  cases x with
  | error e => cases h
  | ok l =>
    cases h
    obtain ⟨_, r1, _, h1, e1⟩ := fc_cons_ok hx
    obtain ⟨_, r2, _, h2, e2⟩ := fc_cons_ok h1
    obtain ⟨_, r3, _, h3, e3⟩ := fc_cons_ok h2
    obtain ⟨_, r4, _, h4, e4⟩ := fc_cons_ok h3
    obtain ⟨_, r5, _, h5, e5⟩ := fc_cons_ok h4
    obtain ⟨_, r6, _, h6, e6⟩ := fc_cons_ok h5
    obtain ⟨_, r7, _, h7, e7⟩ := fc_cons_ok h6
    obtain ⟨_, r8, _, h8, e8⟩ := fc_cons_ok h7
    obtain ⟨_, r9, _, h9, e9⟩ := fc_cons_ok h8
    obtain ⟨v, r10, hv, _, e10⟩ := fc_cons_ok h9
    simp only [JC.omitIf, JC.list] at hv
    cases hc : d.cameras with
    | nil => exact ⟨ms, [], rfl, rfl, fun h => absurd rfl h⟩
    | cons c l =>
      rw [hc] at hv
      simp only [List.isEmpty_cons, Bool.false_eq_true, if_false] at hv
      cases hl : encList (JC.ptr (cameraC E)) (c :: l) with
      | error e => rw [hl] at hv; cases hv
      | ok xs =>
        rw [hl] at hv
        cases hv
        refine ⟨ms, xs, rfl, rfl, fun _ => ?_⟩
        rw [e1, e2, e3, e4, e5, e6, e7, e8, e9, e10]
        simp

theorem encList_ok {α : Type} {c : JC α} : ∀ {l : List α} {xs : List JVal}, encList c l = .ok xs →
    xs.length = l.length ∧ ∀ (i : Nat) a, l[i]? = some a → ∃ v, xs[i]? = some v ∧ c.enc a = .ok v
  | [], xs, h => by cases h; simp
  | a :: l, xs, h => by
    simp only [encList] at h
    cases h1 : c.enc a with
    | error e => rw [h1] at h; cases h
    | ok v =>
      cases h2 : encList c l with
      | error e => rw [h1, h2] at h; cases h
      | ok vs =>
        rw [h1, h2] at h
        cases h
        obtain ⟨e1, e2⟩ := encList_ok h2
        refine ⟨by simp [e1], fun i b hi => ?_⟩
        cases i with
        | zero => simp at hi; subst hi; exact ⟨v, by simp, h1⟩
        | succ i => simpa using e2 i b (by simpa using hi)

/-- C56: a document with a camera that has no projection cannot be encoded, and nothing is written. -/
theorem C56_rejected (E : Env) (U : UrlLib) (o : EncOpts) (doc : Document) (w : Sink) (fs : Option CreateFS) (c : Camera)
    (hc : some c ∈ doc.cameras) (hp : c.perspective = none) (ho : c.orthographic = none) (hb : none ∉ doc.buffers) :
    (encode E U o doc w fs).result.isErr = true ∧ (encode E U o doc w fs).sink = w ∧ (encode E U o doc w fs).fsys = fs := by
  have hm : ∃ e, marshalJSONDoc E o doc = .err e := by
    unfold marshalJSONDoc
    rw [customBuffers_some hb]
    show ∃ e, (match (documentC E).enc (customDoc o.asBinary doc) with | .ok v => Res.ok (v.print o.layout 0) | .error e => .err e) = .err e
    cases he : (documentC E).enc (customDoc o.asBinary doc) with
    | error e => exact ⟨e, rfl⟩
    | ok v =>
      exfalso
      obtain ⟨_, xs, _, hx, _⟩ := documentC_cameras he
      obtain ⟨i, hi⟩ := List.getElem?_of_mem hc
      obtain ⟨v, _, hv⟩ := (encList_ok hx).2 i _ hi
      simp [JC.ptr, cameraC, hp, ho] at hv
  obtain ⟨e, hm⟩ := hm
  unfold encode
  rw [hm]
  exact ⟨rfl, rfl, rfl⟩

/-- C56: otherwise the cameras in the JSON have the type of their projection; the perspective projection wins. -/
theorem C56_type (E : Env) (o : EncOpts) (doc : Document) (text : Bytes) (h : marshalJSONDoc E o doc = .ok text) :
    ∃ ms, text = (JVal.obj ms).print o.layout 0 ∧ (doc.cameras ≠ [] → ∃ xs, (b!"cameras", .arr xs) ∈ ms ∧ xs.length = doc.cameras.length ∧
      ∀ (i : Nat) c, doc.cameras[i]? = some (some c) → ∃ cs, xs[i]? = some (.obj cs) ∧
        (b!"type", .str (if c.perspective.isSome then b!"perspective" else b!"orthographic")) ∈ cs ∧
        (c.perspective.isSome = true ∨ c.orthographic.isSome = true)) := by
  unfold marshalJSONDoc at h
  cases hb : customBuffers o.asBinary doc.buffers with
  | err e => rw [hb] at h; cases h
  | panic e => rw [hb] at h; cases h
  | ok bs =>
    rw [hb] at h
    replace h : (match (documentC E).enc { doc with buffers := bs.map some } with | .ok v => Res.ok (v.print o.layout 0) | .error e => .err e) = .ok text := h
    cases he : (documentC E).enc { doc with buffers := bs.map some } with
    | error e => rw [he] at h; cases h
    | ok v =>
      rw [he] at h
      cases h
      obtain ⟨ms, xs, rfl, hx, hm⟩ := documentC_cameras he
      refine ⟨ms, rfl, fun hne => ⟨xs, hm hne, (encList_ok hx).1, fun i c hi => ?_⟩⟩
      obtain ⟨v, h1, h2⟩ := (encList_ok hx).2 i _ hi
      simp only [JC.ptr, cameraC] at h2
      have hobj : ∀ u, (cameraC' E).enc c = .ok u → ∃ l, u = .obj l := by
        intro u hu
        unfold cameraC' JC.struct at hu
        simp only at hu
        generalize (FC.enc _ _) = x at hu
        cases x with
        | error e => cases hu
        | ok l => cases hu; exact ⟨l, rfl⟩
      cases hcc : (cameraC' E).enc c with
      | error e =>
        rw [hcc] at h2
        split at h2
        · cases h2
        · split at h2 <;> cases h2
      | ok u =>
        rw [hcc] at h2
        obtain ⟨l, rfl⟩ := hobj u hcc
        split at h2
        · rename_i hp
          cases h2
          exact ⟨_, h1, by rw [if_pos hp]; simp, .inl hp⟩
        · rename_i hp
          split at h2
          · rename_i ho
            cases h2
            exact ⟨_, h1, by rw [if_neg hp]; simp, .inr ho⟩
          · cases h2

/-- A document with cameras that can be encoded. -/
example : let doc : Document := { cameras := [some { perspective := some {}, orthographic := some {} }, none, some { orthographic := some {} }] }
    (marshalJSONDoc witnessEnv {} doc).isErr = false ∧ doc.cameras.length = 3 := by
  decide +kernel

end Gltf
