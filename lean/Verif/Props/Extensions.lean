/-
Property C44: extensions.
-/
import Verif.Props.Camera

namespace Gltf

open Spec

/-- What a registered function does with a payload: the value that it returns is represented by what it is written as. -/
abbrev Spec.ExtFun := JVal → Except Err (Except Err JVal)

/-- The function registered last for a name; the history of registrations starts with the first one. -/
def Spec.LastFor {α : Type} (h : List (Bytes × α)) (key : Bytes) (a : α) : Prop :=
  ∃ before after, h = before ++ (key, a) :: after ∧ ∀ p ∈ after, p.1 ≠ key

/-- The value of an extension is that of the function registered last, if it accepts the payload; otherwise it is the
payload. -/
def Spec.IsDecoded (h : List (Bytes × ExtFun)) (key : Bytes) (v : JVal) (x : ExtVal) : Prop :=
  (∃ f n, LastFor h key f ∧ f v = .ok n ∧ x = .typed n) ∨
  (x = .raw v ∧ ∀ f, LastFor h key f → ∃ e, f v = .error e)

/-- The registered extensions after some calls of `RegisterExtension`. -/
def registerAll (h : List (Bytes × ExtFun)) : Registry := h.foldl (fun r p => r.register p.1 p.2) []

theorem foldl_register (h : List (Bytes × ExtFun)) : ∀ r : Registry, h.foldl (fun r p => r.register p.1 p.2) r = h.reverse ++ r := by
  induction h with
  | nil => exact fun r => rfl
  | cons p h ih => intro r; rw [List.foldl_cons, ih]; simp [Registry.register]

theorem lookup_first {α : Type} : ∀ (l : List (Bytes × α)) (key : Bytes),
    (l.lookup key = none ∧ ∀ p ∈ l, p.1 ≠ key) ∨
    ∃ a before after, l.lookup key = some a ∧ l = before ++ (key, a) :: after ∧ ∀ p ∈ before, p.1 ≠ key
  | [], key => .inl ⟨rfl, by simp⟩
  | (k, a) :: l, key => by
    by_cases hk : key = k
    · subst hk
      exact .inr ⟨a, [], l, by simp [List.lookup], rfl, by simp⟩
    · have hb : (key == k) = false := by simpa using hk
      rcases lookup_first l key with ⟨h1, h2⟩ | ⟨b, x, y, h1, h2, h3⟩
      · left
        refine ⟨by simp [List.lookup, hb, h1], ?_⟩
        intro p hp
        rcases List.mem_cons.1 hp with rfl | hp
        · exact fun h => hk h.symm
        · exact h2 p hp
      · right
        refine ⟨b, (k, a) :: x, y, by simp [List.lookup, hb, h1], by rw [h2]; rfl, ?_⟩
        intro p hp
        rcases List.mem_cons.1 hp with rfl | hp
        · exact fun h => hk h.symm
        · exact h3 p hp

theorem lastFor_unique {α : Type} {h : List (Bytes × α)} {key : Bytes} {a b : α} (ha : LastFor h key a) (hb : LastFor h key b) : a = b := by
  obtain ⟨x, y, h1, h2⟩ := ha
  obtain ⟨x', y', h3, h4⟩ := hb
  rw [h1] at h3
  rcases List.append_eq_append_iff.1 h3 with ⟨z, e1, e2⟩ | ⟨z, e1, e2⟩
  · cases z with
    | nil => injection e2 with e2 _; injection e2
    | cons p z =>
      injection e2 with _ e3
      exact absurd rfl (h2 (key, b) (by rw [e3]; simp))
  · cases z with
    | nil => injection e2 with e2 _; injection e2 with _ e2; exact e2.symm
    | cons p z =>
      injection e2 with _ e3
      exact absurd rfl (h4 (key, a) (by rw [e3]; simp))

/-- The registry finds the function registered last. -/
theorem query_last (h : List (Bytes × ExtFun)) (key : Bytes) :
    (∃ f, (registerAll h).query key = some f ∧ LastFor h key f) ∨ ((registerAll h).query key = none ∧ ∀ f, ¬ LastFor h key f) := by
  unfold registerAll Registry.query
  rw [foldl_register, List.append_nil]
  rcases lookup_first h.reverse key with ⟨h1, h2⟩ | ⟨f, x, y, h1, h2, h3⟩
  · refine .inr ⟨h1, ?_⟩
    rintro f ⟨a, b, e, _⟩
    exact h2 (key, f) (by rw [e]; simp) rfl
  · refine .inl ⟨f, h1, y.reverse, x.reverse, ?_, by simpa using h3⟩
    rw [← List.reverse_reverse h, h2]
    simp

theorem decode_isDecoded (h : List (Bytes × ExtFun)) (key : Bytes) (v : JVal) : IsDecoded h key v ((registerAll h).decode key v) := by
  unfold Registry.decode
  rcases query_last h key with ⟨f, h1, h2⟩ | ⟨h1, h2⟩
  · rw [h1]
    cases hf : f v with
    | ok n => exact .inl ⟨f, n, h2, hf, by simp only [hf]⟩
    | error e =>
      refine .inr ⟨by simp only [hf], fun g hg => ?_⟩
      rw [lastFor_unique hg h2]
      exact ⟨e, hf⟩
  · rw [h1]
    exact .inr ⟨rfl, fun f hf => absurd hf (h2 f)⟩

theorem mapInsert_lookup {α : Type} (k : Bytes) (a : α) : ∀ (m : List (Bytes × α)) (key : Bytes),
    m.Pairwise (fun a b => a.1 < b.1) → (mapInsert k a m).lookup key = if key = k then some a else m.lookup key
  | [], key, _ => by
    unfold mapInsert
    by_cases h : key = k
    · simp [List.lookup, h]
    · have : (key == k) = false := by simpa using h
      simp [List.lookup, h, this]
  | (k', a') :: m, key, hs => by
    unfold mapInsert
    by_cases h1 : k = k'
    · rw [if_pos h1]
      subst h1
      by_cases h : key = k
      · simp [List.lookup, h]
      · have : (key == k) = false := by simpa using h
        simp [List.lookup, h, this]
    · rw [if_neg h1]
      by_cases h2 : bytesLt k k' = true
      · rw [if_pos h2]
        by_cases h : key = k
        · simp [List.lookup, h]
        · have : (key == k) = false := by simpa using h
          rw [if_neg h]
          simp [List.lookup, this]
      · rw [if_neg h2]
        have ih := mapInsert_lookup k a m key (List.pairwise_cons.1 hs).2
        by_cases h : key = k'
        · subst h
          have hne : key ≠ k := fun h => h1 h.symm
          simp [List.lookup, hne]
        · have : (key == k') = false := by simpa using h
          simp only [List.lookup, this]
          exact ih

theorem bytesLt_total : ∀ a b : Bytes, bytesLt a b = true ∨ a = b ∨ bytesLt b a = true
  | [], [] => .inr (.inl rfl)
  | [], _ :: _ => .inl rfl
  | _ :: _, [] => .inr (.inr rfl)
  | a :: s, b :: t => by
    unfold bytesLt
    by_cases h1 : a < b
    · simp [h1]
    · by_cases h2 : b < a
      · simp [h1, h2]
      · have : a = b := by
          rw [UInt8.lt_iff_toNat_lt] at h1 h2
          exact UInt8.toNat_inj.1 (by omega)
        subst this
        rcases bytesLt_total s t with h | h | h <;> simp [h1, h]

theorem mapInsert_sorted {α : Type} (k : Bytes) (a : α) : ∀ (m : List (Bytes × α)), m.Pairwise (fun a b => a.1 < b.1) →
    (mapInsert k a m).Pairwise (fun a b => a.1 < b.1) ∧ ∀ p ∈ mapInsert k a m, p = (k, a) ∨ p ∈ m
  | [], _ => by simp [mapInsert]
  | (k', a') :: m, hs => by
    obtain ⟨h1, h2⟩ := List.pairwise_cons.1 hs
    unfold mapInsert
    by_cases hk : k = k'
    · rw [if_pos hk]
      subst hk
      refine ⟨List.pairwise_cons.2 ⟨h1, h2⟩, fun p hp => ?_⟩
      rcases List.mem_cons.1 hp with rfl | hp
      · exact .inl rfl
      · exact .inr (List.mem_cons_of_mem _ hp)
    · rw [if_neg hk]
      by_cases hl : bytesLt k k' = true
      · rw [if_pos hl]
        have hlt := (bytesLt_iff k k').1 hl
        refine ⟨List.pairwise_cons.2 ⟨fun p hp => ?_, hs⟩, fun p hp => ?_⟩
        · rcases List.mem_cons.1 hp with rfl | hp
          · exact hlt
          · exact List.lt_trans hlt (h1 p hp)
        · rcases List.mem_cons.1 hp with rfl | hp
          · exact .inl rfl
          · exact .inr hp
      · rw [if_neg hl]
        obtain ⟨i1, i2⟩ := mapInsert_sorted k a m h2
        have hlt : k' < k := by
          rcases bytesLt_total k k' with h | h | h
          · exact absurd h hl
          · exact absurd h hk
          · exact (bytesLt_iff k' k).1 h
        refine ⟨List.pairwise_cons.2 ⟨fun p hp => ?_, i1⟩, fun p hp => ?_⟩
        · rcases i2 p hp with rfl | hp
          · exact hlt
          · exact h1 p hp
        · rcases List.mem_cons.1 hp with rfl | hp
          · exact .inr (by simp)
          · rcases i2 p hp with h | h
            · exact .inl h
            · exact .inr (List.mem_cons_of_mem _ h)

theorem decExtensions_spec (h : List (Bytes × ExtFun)) : ∀ (vs : List (Bytes × JVal)) (cur : Extensions), cur.Pairwise (fun a b => a.1 < b.1) →
    (decExtensions (registerAll h) vs cur).Pairwise (fun a b => a.1 < b.1) ∧
    (∀ key v, LastFor vs key v → ∃ x, (decExtensions (registerAll h) vs cur).lookup key = some x ∧ IsDecoded h key v x) ∧
    (∀ key, (∀ p ∈ vs, p.1 ≠ key) → (decExtensions (registerAll h) vs cur).lookup key = cur.lookup key)
  | [], cur, hc => ⟨hc, fun key v ⟨a, b, e, _⟩ => by simp at e, fun _ _ => rfl⟩
  | (k, v) :: vs, cur, hc => by
    obtain ⟨s1, _⟩ := mapInsert_sorted k ((registerAll h).decode k v) cur hc
    obtain ⟨i1, i2, i3⟩ := decExtensions_spec h vs _ s1
    refine ⟨i1, fun key w hl => ?_, fun key hn => ?_⟩
    · obtain ⟨a, b, e, hb⟩ := hl
      cases a with
      | cons p a =>
        injection e with _ e
        exact i2 key w ⟨a, b, e, hb⟩
      | nil =>
        injection e with e1 e2
        injection e1 with e1 e3
        subst e1 e2 e3
        refine ⟨(registerAll h).decode k v, ?_, decode_isDecoded h k v⟩
        show (decExtensions _ vs _).lookup k = _
        rw [i3 k hb, mapInsert_lookup _ _ _ _ hc, if_pos rfl]
    · show (decExtensions _ vs _).lookup key = _
      rw [i3 key fun p hp => hn p (List.mem_cons_of_mem _ hp), mapInsert_lookup _ _ _ _ hc, if_neg]
      intro he
      exact hn (k, v) (by simp) he.symm

/-- C44: after any history of registrations, an object of extensions is decoded as specified: every extension by the
function registered last for its name, or kept as it is. Of repeated names the last one counts. -/
theorem C44_decoded (h : List (Bytes × ExtFun)) (vs : List (Bytes × JVal)) :
    ∃ m, (JC.extensions (registerAll h)).dec (.obj vs) [] = .ok m ∧
      (∀ key v, LastFor vs key v → ∃ x, m.lookup key = some x ∧ IsDecoded h key v x) ∧
      (∀ key, (∀ p ∈ vs, p.1 ≠ key) → m.lookup key = none) := by
  obtain ⟨_, h2, h3⟩ := decExtensions_spec h vs [] List.Pairwise.nil
  exact ⟨_, rfl, h2, h3⟩

theorem lookup_mem {α : Type} {m : List (Bytes × α)} {k : Bytes} {x : α} (h : m.lookup k = some x) : (k, x) ∈ m := by
  rcases lookup_first m k with ⟨h1, _⟩ | ⟨a, b, c, h1, h2, _⟩
  · rw [h1] at h; cases h
  · rw [h1] at h
    cases h
    rw [h2]
    simp

theorem encMap_mem {α : Type} {c : JC α} : ∀ {m : List (Bytes × α)} {es : List (Bytes × JVal)}, encMap c m = .ok es →
    es.map (·.1) = m.map (·.1) ∧ ∀ k a, (k, a) ∈ m → ∃ v, c.enc a = .ok v ∧ (k, v) ∈ es
  | [], es, h => by cases h; simp
  | (k, a) :: m, es, h => by
    simp only [encMap] at h
    cases h1 : c.enc a with
    | error e => rw [h1] at h; cases h
    | ok v =>
      cases h2 : encMap c m with
      | error e => rw [h1, h2] at h; cases h
      | ok vs =>
        rw [h1, h2] at h
        cases h
        obtain ⟨i1, i2⟩ := encMap_mem h2
        refine ⟨by simp [i1], fun k' a' hm => ?_⟩
        rcases List.mem_cons.1 hm with e | hm
        · cases e
          exact ⟨v, h1, by simp⟩
        · obtain ⟨w, w1, w2⟩ := i2 k' a' hm
          exact ⟨w, w1, List.mem_cons_of_mem _ w2⟩

/-- C44: `Encode` writes all extensions of a document, under their names, and raw values as they are. -/
theorem C44_written (E : Env) (o : EncOpts) (doc : Document) (text : Bytes) (h : marshalJSONDoc E o doc = .ok text)
    (hne : doc.extensions ≠ []) :
    ∃ ms es, text = (JVal.obj ms).print o.layout 0 ∧ (b!"extensions", .obj es) ∈ ms ∧
      es.map (·.1) = doc.extensions.map (·.1) ∧ ∀ key v, (key, ExtVal.raw v) ∈ doc.extensions → (key, v) ∈ es := by
  unfold marshalJSONDoc at h
  cases hb : customBuffers o.asBinary doc.buffers with
  | err e => rw [hb] at h; cases h
  | panic e => rw [hb] at h; cases h
  | ok bs =>
    rw [hb] at h
    replace h : (match (documentC E).enc { doc with buffers := bs.map some } with | .ok v => Res.ok (v.print o.layout 0) | .error e => .err e) = .ok text := h
    cases he : (documentC E).enc { doc with buffers := bs.map some } with
    | error e => rw [he] at h; cases h
    | ok v =>
      rw [he] at h
      cases h
      unfold documentC JC.struct at he
      simp only at he
      generalize hx : (FC.enc _ _) = x at he
      cases x with
      | error e => cases he
      | ok l =>
        cases he
        obtain ⟨_, r1, _, h1, e1⟩ := fc_cons_ok hx
        obtain ⟨v, r2, hv, _, e2⟩ := fc_cons_ok h1
        simp only [Env.ext, JC.omitIf, JC.extensions] at hv
        cases hl : doc.extensions with
        | nil => exact absurd hl hne
        | cons p m =>
          rw [hl] at hv
          simp only [List.isEmpty_cons, Bool.false_eq_true, if_false] at hv
          generalize hes : encMap _ (p :: m) = es at hv
          cases es with
          | error e => cases hv
          | ok es =>
            cases hv
            obtain ⟨k1, k2⟩ := encMap_mem hes
            refine ⟨l, es, rfl, ?_, k1, fun key v hm => ?_⟩
            · rw [e1, e2]
              simp
            · obtain ⟨w, w1, w2⟩ := k2 key _ hm
              cases w1
              exact w2

/-- The hypotheses are met: of two registered functions the second counts. -/
example : LastFor [(b!"A", 1), (b!"B", 2), (b!"A", 3)] b!"A" 3 ∧ LastFor [(b!"A", 1), (b!"B", 2), (b!"A", 3)] b!"B" 2 :=
  ⟨⟨[(b!"A", 1), (b!"B", 2)], [], rfl, by simp⟩, ⟨[(b!"A", 1)], [(b!"A", 3)], rfl, by decide⟩⟩

example : (marshalJSONDoc witnessEnv {} { extensions := [(b!"EXT", .raw (.arr [.null]))] }).isErr = false := by decide +kernel

end Gltf
