/-
Lemmas on the Encoder with shared memory: it only changes what it allocated, and its result is that of the model with values.
-/
import Verif.Lemmas.Shared

namespace Gltf.Shared

open Gltf

/-- Later cells. -/
def Ext (f g : Cells) : Prop := ∀ a o, f a = some o → g a = some o

theorem Ext.refl (f : Cells) : Ext f f := fun _ _ h => h

theorem Ext.trans {f g h : Cells} (h1 : Ext f g) (h2 : Ext g h) : Ext f h := fun a o e => h2 a o (h1 a o e)

theorem Ext.look {m : Mem} {f g : Cells} (h : Ext f g) {a : Nat} {o : Obj} (e : look m f a = some o) : Shared.look m g a = some o := by
  unfold Shared.look at e ⊢
  split
  · next hl => rw [if_pos hl] at e; exact e
  · next hl => rw [if_neg hl] at e; exact h _ _ e

theorem ext_upd {f : Cells} {a : Nat} (h : f a = none) (o : Obj) : Ext f (upd f a o) := by
  intro b x e
  unfold upd
  split
  · next hb => subst hb; rw [h] at e; cases e
  · exact e

theorem look_upd {m : Mem} {f : Cells} {a : Nat} (h : m.length ≤ a) (o : Obj) : look m (upd f a o) a = some o := by
  unfold look upd
  rw [if_neg (by omega), if_pos rfl]

theorem upd_upd (f : Cells) (a : Nat) (o o' : Obj) : upd (upd f a o) a o' = upd f a o' := by
  funext b
  unfold upd
  split <;> rfl

theorem look_old {m : Mem} {a : Nat} {o : Obj} (h : m[a]? = some o) (f : Cells) : look m f a = some o := by
  unfold look
  rw [if_pos (List.getElem?_eq_some_iff.1 h).1, h]

theorem bufAt_of {m : Mem} {a : Nat} {b : Buffer} (h : m[a]? = some (.buf b)) : bufAt m a = b := by
  unfold bufAt; rw [h]

theorem pbrAt_of {m : Mem} {a : Nat} {p : PBRMetallicRoughness} (h : m[a]? = some (.pbr p)) : pbrAt m a = p := by
  unfold pbrAt; rw [h]

/-! ### Single accesses -/

theorem wp_loadBuf {m : Mem} {f : Cells} {a : Nat} {b : Buffer} (h : look m f a = some (.buf b)) {β : Type} {g : Buffer → Prog β}
    {Q : Res β → Cells → Prop} (hq : wp m (g b) f Q) : wp m (loadBuf a >>= g) f Q := wp_bind ⟨_, h, hq⟩

theorem wp_loadPbr {m : Mem} {f : Cells} {a : Nat} {p : PBRMetallicRoughness} (h : look m f a = some (.pbr p)) {β : Type}
    {g : PBRMetallicRoughness → Prog β} {Q : Res β → Cells → Prop} (hq : wp m (g p) f Q) : wp m (loadPbr a >>= g) f Q := wp_bind ⟨_, h, hq⟩

theorem wp_new {m : Mem} {f : Cells} {o : Obj} {β : Type} {g : Nat → Prog β} {Q : Res β → Cells → Prop}
    (hq : ∀ a, m.length ≤ a → f a = none → wp m (g a) (upd f a o) Q) : wp m (new o >>= g) f Q := wp_bind hq

theorem wp_setBuf {m : Mem} {f : Cells} {a : Nat} (ha : m.length ≤ a) {b : Buffer} {h : Buffer → Buffer} {β : Type} {g : Unit → Prog β}
    {Q : Res β → Cells → Prop} (hq : wp m (g ()) (upd f a (.buf (h b))) Q) : wp m (setBuf a h >>= g) (upd f a (.buf b)) Q := by
  refine wp_bind (wp_loadBuf (look_upd ha _) ⟨ha, by simp [upd], ?_⟩)
  rw [upd_upd]
  exact hq

theorem wp_setPbr {m : Mem} {f : Cells} {a : Nat} (ha : m.length ≤ a) {p : PBRMetallicRoughness} {h : PBRMetallicRoughness → PBRMetallicRoughness}
    {β : Type} {g : Unit → Prog β} {Q : Res β → Cells → Prop} (hq : wp m (g ()) (upd f a (.pbr (h p))) Q) :
    wp m (setPbr a h >>= g) (upd f a (.pbr p)) Q := by
  refine wp_bind (wp_loadPbr (look_upd ha _) ⟨ha, by simp [upd], ?_⟩)
  rw [upd_upd]
  exact hq

/-! ### Buffers -/

/-- The result of a program stands for a result of the model with values. -/
def Rel {β γ : Type} (R : β → γ → Cells → Prop) (r : Res β) (r' : Res γ) (c : Cells) : Prop :=
  match r' with
  | .ok x => ∃ b, r = .ok b ∧ R b x c
  | .err e => r = .err e
  | .panic w => r = .panic w

/-- The same for lists. -/
def All2 {β γ : Type} (R : β → γ → Cells → Prop) : List β → List γ → Cells → Prop
  | [], [], _ => True
  | b :: bs, x :: xs, c => R b x c ∧ All2 R bs xs c
  | _, _, _ => False

def Ptr (m : Mem) (a : Nat) (b : Buffer) (c : Cells) : Prop := look m c a = some (.buf b)

theorem wp_customBuffer {m : Mem} {first : Bool} {p : Option Nat} (hp : ∀ a, p = some a → ∃ b, m[a]? = some (.buf b)) (c : Cells) :
    wp m (customBuffer first p) c fun r c' => Ext c c' ∧ Rel (Ptr m) r (Gltf.customBuffer first (p.map (bufAt m))) c' := by
  cases p with
  | none => exact ⟨.refl _, rfl⟩
  | some a =>
    obtain ⟨b, hb⟩ := hp a rfl
    simp only [Option.map_some, bufAt_of hb]
    refine wp_loadBuf (look_old hb c) ?_
    unfold Gltf.customBuffer
    simp only
    by_cases h1 : first = true ∧ b.uri = []
    · rw [if_pos h1, if_pos h1]
      exact ⟨.refl _, a, rfl, look_old hb c⟩
    · rw [if_neg h1, if_neg h1]
      by_cases h2 : b.data ≠ [] ∧ b.uri = [] ∧ !b.isEmbeddedResource
      · rw [if_pos h2, if_pos h2]
        refine wp_new fun t ht hn => ?_
        refine wp_setBuf ht ?_
        exact ⟨ext_upd hn _, t, rfl, look_upd ht _⟩
      · rw [if_neg h2, if_neg h2]
        exact ⟨.refl _, a, rfl, look_old hb c⟩

theorem all2_ext {m : Mem} : ∀ {as : List Nat} {bs : List Buffer} {c c' : Cells}, Ext c c' → All2 (Ptr m) as bs c → All2 (Ptr m) as bs c'
  | [], [], _, _, _, _ => trivial
  | _ :: _, _ :: _, _, _, he, h => ⟨he.look h.1, all2_ext he h.2⟩
  | [], _ :: _, _, _, _, h => h.elim
  | _ :: _, [], _, _, _, h => h.elim

theorem wp_mapCustom {m : Mem} : ∀ {l : List (Option Nat)}, (∀ a, some a ∈ l → ∃ b, m[a]? = some (.buf b)) → ∀ c : Cells,
    wp m (mapProg (customBuffer false) l) c fun r c' => Ext c c' ∧
      Rel (All2 (Ptr m)) r (mapRes (Gltf.customBuffer false) (l.map (Option.map (bufAt m)))) c'
  | [], _, c => ⟨.refl _, [], rfl, trivial⟩
  | p :: l, h, c => by
    unfold mapProg
    refine wp_bind (wp_mono (wp_customBuffer (fun a e => h a (by simp [e])) c) ?_)
    rintro r c1 ⟨e1, hr⟩
    have hc : mapRes (Gltf.customBuffer false) ((p :: l).map (Option.map (bufAt m))) =
        (Gltf.customBuffer false (p.map (bufAt m)) >>= fun b => mapRes (Gltf.customBuffer false) (l.map (Option.map (bufAt m))) >>= fun l => pure (b :: l)) := rfl
    rw [hc]
    cases hx : Gltf.customBuffer false (p.map (bufAt m)) with
    | err e => rw [hx] at hr; cases hr; exact ⟨e1, rfl⟩
    | panic w => rw [hx] at hr; cases hr; exact ⟨e1, rfl⟩
    | ok x =>
      rw [hx] at hr
      obtain ⟨a, rfl, ha⟩ := hr
      refine wp_bind (wp_mono (wp_mapCustom (fun a ha => h a (.tail _ ha)) c1) ?_)
      rintro r c2 ⟨e2, hr⟩
      show after m _ _ r c2
      cases hy : mapRes (Gltf.customBuffer false) (l.map (Option.map (bufAt m))) with
      | err e => rw [hy] at hr; cases hr; exact ⟨e1.trans e2, rfl⟩
      | panic w => rw [hy] at hr; cases hr; exact ⟨e1.trans e2, rfl⟩
      | ok xs =>
        rw [hy] at hr
        obtain ⟨as, rfl, has⟩ := hr
        exact ⟨e1.trans e2, a :: as, rfl, e2.look ha, has⟩

theorem wp_customBuffers {m : Mem} {bin : Bool} : ∀ {l : List (Option Nat)}, (∀ a, some a ∈ l → ∃ b, m[a]? = some (.buf b)) → ∀ c : Cells,
    wp m (customBuffers bin l) c fun r c' => Ext c c' ∧ Rel (All2 (Ptr m)) r (Gltf.customBuffers bin (l.map (Option.map (bufAt m)))) c'
  | [], _, c => ⟨.refl _, [], rfl, trivial⟩
  | p :: l, h, c => by
    unfold customBuffers
    refine wp_bind (wp_mono (wp_customBuffer (fun a e => h a (by simp [e])) c) ?_)
    rintro r c1 ⟨e1, hr⟩
    have hc : Gltf.customBuffers bin ((p :: l).map (Option.map (bufAt m))) =
        (Gltf.customBuffer bin (p.map (bufAt m)) >>= fun b => mapRes (Gltf.customBuffer false) (l.map (Option.map (bufAt m))) >>= fun l => pure (b :: l)) := rfl
    rw [hc]
    cases hx : Gltf.customBuffer bin (p.map (bufAt m)) with
    | err e => rw [hx] at hr; cases hr; exact ⟨e1, rfl⟩
    | panic w => rw [hx] at hr; cases hr; exact ⟨e1, rfl⟩
    | ok x =>
      rw [hx] at hr
      obtain ⟨a, rfl, ha⟩ := hr
      refine wp_bind (wp_mono (wp_mapCustom (fun a ha => h a (.tail _ ha)) c1) ?_)
      rintro r c2 ⟨e2, hr⟩
      show after m _ _ r c2
      cases hy : mapRes (Gltf.customBuffer false) (l.map (Option.map (bufAt m))) with
      | err e => rw [hy] at hr; cases hr; exact ⟨e1.trans e2, rfl⟩
      | panic w => rw [hy] at hr; cases hr; exact ⟨e1.trans e2, rfl⟩
      | ok xs =>
        rw [hy] at hr
        obtain ⟨as, rfl, has⟩ := hr
        exact ⟨e1.trans e2, a :: as, rfl, e2.look ha, has⟩

theorem wp_loadAll {m : Mem} {c : Cells} : ∀ {as : List Nat} {bs : List Buffer}, All2 (Ptr m) as bs c →
    wp m (mapProg loadBuf as) c fun r c' => c' = c ∧ r = .ok bs
  | [], [], _ => ⟨rfl, rfl⟩
  | a :: as, b :: bs, h => by
    unfold mapProg
    refine wp_loadBuf h.1 (wp_bind (wp_mono (wp_loadAll h.2) ?_))
    rintro r c' ⟨rfl, rfl⟩
    exact ⟨rfl, rfl⟩
  | [], _ :: _, h => h.elim
  | _ :: _, [], h => h.elim

/-! ### Materials -/

/-- The description of a material without defaults. -/
def strip (p : PBRMetallicRoughness) : PBRMetallicRoughness :=
  { p with
    metallicFactor := if p.metallicFactor.any (·.feq f64one) then none else p.metallicFactor,
    roughnessFactor := if p.roughnessFactor.any (·.feq f64one) then none else p.roughnessFactor,
    baseColorFactor := if p.baseColorFactor.any (arrayEq · white) then none else p.baseColorFactor }

theorem wp_ifSet {m : Mem} {c : Cells} {a : Nat} (ha : m.length ≤ a) {p : PBRMetallicRoughness} {b : Bool} {h : PBRMetallicRoughness → PBRMetallicRoughness}
    {β : Type} {g : Unit → Prog β} {Q : Res β → Cells → Prop} (hq : wp m (g ()) (upd c a (.pbr (if b then h p else p))) Q) :
    wp m (if b = true then setPbr a h >>= g else g ()) (upd c a (.pbr p)) Q := by
  cases b with
  | true => exact wp_setPbr ha hq
  | false => exact hq

theorem wp_marshalPbr {m : Mem} {p : Option Nat} (hp : ∀ a, p = some a → ∃ x, m[a]? = some (.pbr x)) (c : Cells) :
    wp m (marshalPbr p) c fun r c' => Ext c c' ∧ r = .ok (p.map fun a => strip (pbrAt m a)) := by
  cases p with
  | none => exact ⟨.refl _, rfl⟩
  | some a =>
    obtain ⟨p, hb⟩ := hp a rfl
    simp only [Option.map_some, pbrAt_of hb]
    refine wp_loadPbr (look_old hb c) (wp_new fun t ht hn => ?_)
    refine wp_ifSet ht ?_
    refine wp_ifSet ht ?_
    refine wp_ifSet ht ?_
    refine wp_loadPbr (look_upd ht _) ?_
    refine ⟨ext_upd hn _, ?_⟩
    refine congrArg (fun x => Res.ok (some x)) ?_
    unfold strip
    cases p.metallicFactor.any (·.feq f64one) <;> cases p.roughnessFactor.any (·.feq f64one) <;>
      cases p.baseColorFactor.any (arrayEq · white) <;> rfl

theorem wp_mapPbr {m : Mem} : ∀ {l : List (Option Nat)}, (∀ a, some a ∈ l → ∃ x, m[a]? = some (.pbr x)) → ∀ c : Cells,
    wp m (mapProg marshalPbr l) c fun r c' => Ext c c' ∧ r = .ok (l.map (Option.map fun a => strip (pbrAt m a)))
  | [], _, c => ⟨.refl _, rfl⟩
  | p :: l, h, c => by
    unfold mapProg
    refine wp_bind (wp_mono (wp_marshalPbr (fun a e => h a (by simp [e])) c) ?_)
    rintro r c1 ⟨e1, rfl⟩
    refine wp_bind (wp_mono (wp_mapPbr (fun a ha => h a (.tail _ ha)) c1) ?_)
    rintro r c2 ⟨e2, rfl⟩
    exact ⟨e1.trans e2, rfl⟩

/-! ### Marshalling without the defaults -/

theorem FC.cons_congr {α τ : Type} {name : Bytes} {f : FE α} {r : FC τ} {a a' : α} {t t' : τ} (h : f.enc a = f.enc a') (h' : r.enc t = r.enc t') :
    (FC.cons name f r).enc (a, t) = (FC.cons name f r).enc (a', t') := by
  show (f.enc a >>= fun v => r.enc t >>= _) = (f.enc a' >>= fun v => r.enc t' >>= _)
  rw [h, h']

theorem enc_stripArray (E : Env) (x : Option (Vector F64 4)) :
    ((JC.ptr (JC.array 4 E.float)).omitIf fun m => m.all (arrayEq · white)).enc (if x.any (arrayEq · white) then none else x) =
      ((JC.ptr (JC.array 4 E.float)).omitIf fun m => m.all (arrayEq · white)).enc x := by
  cases x with
  | none => rfl
  | some x =>
    cases h : arrayEq x white with
    | false => simp [h]
    | true => simp [h, JC.omitIf]

theorem enc_stripFloat (E : Env) (x : Option F64) :
    (E.omitFloatIf f64one).enc (if x.any (·.feq f64one) then none else x) = (E.omitFloatIf f64one).enc x := by
  cases x with
  | none => rfl
  | some x =>
    cases h : x.feq f64one with
    | false => simp [h]
    | true => simp [h, Env.omitFloatIf, JC.omitIf]

theorem enc_strip (E : Env) (p : PBRMetallicRoughness) : (pbrC E).enc (strip p) = (pbrC E).enc p := by
  refine congrArg (Except.map JVal.obj) ?_
  refine FC.cons_congr rfl (FC.cons_congr rfl (FC.cons_congr (enc_stripArray E _) (FC.cons_congr rfl (FC.cons_congr (enc_stripFloat E _)
    (FC.cons_congr (enc_stripFloat E _) rfl)))))

theorem enc_ptrStrip (E : Env) (p : Option PBRMetallicRoughness) :
    ((JC.ptr (pbrC E)).omitIf Option.isNone).enc (p.map strip) = ((JC.ptr (pbrC E)).omitIf Option.isNone).enc p := by
  cases p with
  | none => rfl
  | some p => exact congrArg (Except.map some) (enc_strip E p)

theorem enc_material (E : Env) (x : Material) (p : Option PBRMetallicRoughness) :
    (materialC E).enc { x with pbrMetallicRoughness := p.map strip } = (materialC E).enc { x with pbrMetallicRoughness := p } := by
  refine congrArg (Except.map JVal.obj) ?_
  refine FC.cons_congr rfl (FC.cons_congr rfl (FC.cons_congr rfl (FC.cons_congr rfl (FC.cons_congr rfl (FC.cons_congr (enc_ptrStrip E p) rfl)))))

theorem enc_materials (E : Env) : ∀ (l : List (Option Material)) (ps : List (Option PBRMetallicRoughness)),
    encList (JC.ptr (materialC E)) (List.zipWith (fun m p => m.map fun m : Material => { m with pbrMetallicRoughness := p }) l (ps.map (Option.map strip))) =
      encList (JC.ptr (materialC E)) (List.zipWith (fun m p => m.map fun m : Material => { m with pbrMetallicRoughness := p }) l ps)
  | [], _ => rfl
  | _ :: _, [] => rfl
  | x :: l, p :: ps => by
    have h := enc_materials E l ps
    simp only [List.map_cons, List.zipWith_cons_cons, encList, h]
    cases x with
    | none => rfl
    | some x =>
      simp only [Option.map_some, JC.ptr, enc_material]

theorem enc_listMaterials (E : Env) (l : List (Option Material)) (ps : List (Option PBRMetallicRoughness)) :
    ((JC.list (JC.ptr (materialC E))).omitIf List.isEmpty).enc (List.zipWith (fun m p => m.map fun m : Material => { m with pbrMetallicRoughness := p }) l (ps.map (Option.map strip))) =
      ((JC.list (JC.ptr (materialC E))).omitIf List.isEmpty).enc (List.zipWith (fun m p => m.map fun m : Material => { m with pbrMetallicRoughness := p }) l ps) := by
  have h := enc_materials E l ps
  have he : (List.zipWith (fun m p => m.map fun m : Material => { m with pbrMetallicRoughness := p }) l (ps.map (Option.map strip))).isEmpty =
      (List.zipWith (fun m p => m.map fun m : Material => { m with pbrMetallicRoughness := p }) l ps).isEmpty := by
    cases l <;> cases ps <;> rfl
  simp only [JC.omitIf, JC.list, he, h]

theorem enc_document (E : Env) (d : Document) (bs : List (Option Buffer)) (ps : List (Option PBRMetallicRoughness)) :
    (documentC E).enc { d with buffers := bs, materials := List.zipWith (fun m p => m.map fun m => { m with pbrMetallicRoughness := p }) d.materials (ps.map (Option.map strip)) } =
      (documentC E).enc { d with buffers := bs, materials := List.zipWith (fun m p => m.map fun m => { m with pbrMetallicRoughness := p }) d.materials ps } := by
  refine congrArg (Except.map JVal.obj) ?_
  refine FC.cons_congr rfl (FC.cons_congr rfl (FC.cons_congr rfl (FC.cons_congr rfl (FC.cons_congr rfl (FC.cons_congr rfl (FC.cons_congr rfl
    (FC.cons_congr rfl (FC.cons_congr rfl (FC.cons_congr rfl (FC.cons_congr rfl (FC.cons_congr (enc_listMaterials E _ _) rfl)))))))))))

/-! ### The Encoder -/

theorem zip_value (m : Mem) : ∀ (l : List (Option Material)) (ps : List (Option Nat)),
    List.zipWith (fun x p => x.map fun x : Material => { x with pbrMetallicRoughness := p }) l (ps.map (Option.map (pbrAt m))) =
      List.zipWith (fun x p => x.map fun x : Material => { x with pbrMetallicRoughness := p.map (pbrAt m) }) l ps
  | [], _ => rfl
  | _ :: _, [] => rfl
  | x :: l, p :: ps => by simp only [List.map_cons, List.zipWith_cons_cons, zip_value m l ps]

theorem wp_marshalJSONDoc {E : Env} {m : Mem} {o : EncOpts} {d : PDoc} (hd : d.Valid m) (c : Cells) :
    wp m (marshalJSONDoc E o d) c fun r _ => r = Gltf.marshalJSONDoc E o (d.value m) := by
  unfold marshalJSONDoc
  refine wp_bind (wp_mono (wp_customBuffers hd.buffer c) ?_)
  rintro r c1 ⟨-, hr⟩
  have hm : Gltf.marshalJSONDoc E o (d.value m) = (Gltf.customBuffers o.asBinary (d.buffers.map (Option.map (bufAt m))) >>= fun buffers =>
    match (documentC E).enc { d.value m with buffers := buffers.map some } with
    | .ok v => .ok (v.print o.layout 0)
    | .error e => .err e) := rfl
  rw [hm]
  cases hx : Gltf.customBuffers o.asBinary (d.buffers.map (Option.map (bufAt m))) with
  | err e => rw [hx] at hr; cases hr; exact rfl
  | panic w => rw [hx] at hr; cases hr; exact rfl
  | ok bs =>
    rw [hx] at hr
    obtain ⟨as, rfl, ha⟩ := hr
    refine wp_bind (wp_mono (wp_loadAll ha) ?_)
    rintro r c2 ⟨rfl, rfl⟩
    refine wp_bind (wp_mono (wp_mapPbr hd.pbr _) ?_)
    rintro r c3 ⟨-, rfl⟩
    have he : d.pbrs.map (Option.map fun a => strip (pbrAt m a)) = (d.pbrs.map (Option.map (pbrAt m))).map (Option.map strip) := by
      rw [List.map_map]
      refine List.map_congr_left fun p _ => ?_
      cases p <;> rfl
    have hv := enc_document E d.doc (bs.map some) (d.pbrs.map (Option.map (pbrAt m)))
    rw [← he, zip_value] at hv
    show wp m (match (documentC E).enc _ with | .ok v => _ | .error e => _) c3 _
    rw [hv]
    have key : ∀ e : Except Err JVal, wp m (match e with | .ok v => (.ret (.ok (v.print o.layout 0)) : Prog Bytes) | .error e => .ret (.err e)) c3
        fun r _ => r = match e with | .ok v => .ok (v.print o.layout 0) | .error e => .err e := by
      intro e
      cases e <;> rfl
    exact key _

theorem wp_binBuffer {m : Mem} {d : PDoc} (hd : d.Valid m) (c : Cells) :
    wp m (binBuffer d.buffers) c fun r _ => r = .ok (Gltf.binBuffer (d.value m)) := by
  have hv : (d.value m).buffers = d.buffers.map (Option.map (bufAt m)) := rfl
  unfold Gltf.binBuffer
  rw [hv]
  have h := hd.buffer
  revert h
  cases d.buffers with
  | nil => intro _; exact rfl
  | cons p l =>
    intro h
    cases p with
    | none => exact rfl
    | some a =>
      obtain ⟨b, hb⟩ := h a (.head _)
      refine wp_loadBuf (look_old hb c) ?_
      simp only [List.map_cons, Option.map_some, bufAt_of hb]
      exact rfl

theorem wp_encodeBuffers {U : UrlLib} {m : Mem} {c : Cells} : ∀ {l : List (Option Nat)} {fs : Option CreateFS},
    (∀ a, some a ∈ l → ∃ b, m[a]? = some (.buf b)) →
      wp m (encodeBuffers U l fs) c fun r _ => r = .ok (Gltf.encodeBuffers U (l.map (Option.map (bufAt m))) fs)
  | [], _, _ => rfl
  | none :: _, _, _ => rfl
  | some a :: l, fs, h => by
    obtain ⟨b, hb⟩ := h a (.head _)
    refine wp_loadBuf (look_old hb c) ?_
    rw [List.map_cons, Option.map_some, bufAt_of hb]
    unfold Gltf.encodeBuffers
    by_cases h1 : b.data = [] ∨ b.uri = [] ∨ b.isEmbeddedResource
    · rw [if_pos h1]
      simp only [h1, if_true]
      exact wp_encodeBuffers fun a ha => h a (.tail _ ha)
    · rw [if_neg h1]
      simp only [h1, if_false]
      match he : encodeBuffer U b fs with
      | (.err e, fs, t) => exact rfl
      | (.panic w, fs, t) => exact rfl
      | (.ok (), fs, t) =>
        refine wp_bind (wp_mono (wp_encodeBuffers fun a ha => h a (.tail _ ha)) ?_)
        rintro r c' rfl
        exact rfl

theorem drop_valid {m : Mem} {d : PDoc} (hd : d.Valid m) (k : Nat) : ∀ a, some a ∈ d.buffers.drop k → ∃ b, m[a]? = some (.buf b) :=
  fun a ha => hd.buffer a (List.mem_of_mem_drop ha)

theorem wp_encode {E : Env} {U : UrlLib} {m : Mem} {o : EncOpts} {d : PDoc} (hd : d.Valid m) (w : Sink) (fs : Option CreateFS) (c : Cells) :
    wp m (encode E U o d w fs) c fun r _ => r = .ok (Gltf.encode E U o (d.value m) w fs) := by
  unfold encode Gltf.encode
  refine wp_bind (wp_attempt (wp_mono (wp_marshalJSONDoc hd c) ?_))
  rintro r c1 rfl
  cases Gltf.marshalJSONDoc E o (d.value m) with
  | err e => exact rfl
  | panic w => exact rfl
  | ok text =>
    show wp m (if o.asBinary then _ else _) c1 _
    by_cases hb : o.asBinary = true
    · rw [if_pos hb]
      simp only [hb, if_true]
      refine wp_bind (wp_mono (wp_binBuffer hd c1) ?_)
      rintro r c2 rfl
      show wp m (match writeBinary text (Gltf.binBuffer (d.value m)) w with | (.err e, w) => _ | (.panic m, w) => _ | (.ok h, w) => _) c2 _
      match writeBinary text (Gltf.binBuffer (d.value m)) w with
      | (.err e, w) => exact rfl
      | (.panic e, w) => exact rfl
      | (.ok h, w) =>
        refine wp_bind (wp_mono (wp_encodeBuffers (drop_valid hd _)) ?_)
        rintro r c3 rfl
        rw [List.map_drop]
        exact rfl
    · rw [if_neg hb]
      simp only [hb]
      match w.write text with
      | (some e, w) => exact rfl
      | (none, w) =>
        refine wp_bind (wp_mono (wp_encodeBuffers hd.buffer) ?_)
        rintro r c3 rfl
        exact rfl

end Gltf.Shared
