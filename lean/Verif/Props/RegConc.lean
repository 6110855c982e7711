/-
Property C93: extensions can be registered while documents are decoded.
-/
import Verif.Spec.RegConc

namespace Gltf.Reg

/-! ### Steps -/

/-- What the goroutine still has to do. -/
def Phase.prog : Phase → Prog
  | .out p => p
  | .waiting k f p => .register k f p
  | .writing k f p => .register k f p
  | .written p => p
  | .reading k c => .query k c
  | .done v c => c v

def progAt (s : State) (i : Nat) : Option Prog := s.threads[i]?.map Phase.prog

/-- Each step accesses the map at most once. -/
inductive Kind (t u : State) (i : Nat) : Prop where
  | none (hl : u.log = t.log) (hr : u.reg = t.reg) (hp : ∀ j, progAt u j = progAt t j)
  | write (k : Bytes) (f : JVal → Except Err (Except Err JVal)) (p : Prog) (hl : u.log = t.log ++ [(i, .write k f)])
      (hr : u.reg = t.reg.register k f) (ht : progAt t i = some (.register k f p)) (hu : progAt u i = some p) (hp : ∀ j, j ≠ i → progAt u j = progAt t j)
  | read (k : Bytes) (c : Option (JVal → Except Err (Except Err JVal)) → Prog) (hl : u.log = t.log ++ [(i, .read k (t.reg.query k))])
      (hr : u.reg = t.reg) (ht : progAt t i = some (.query k c)) (hu : progAt u i = some (c (t.reg.query k)))
      (hp : ∀ j, j ≠ i → progAt u j = progAt t j)

theorem set_same {l : List Phase} {i : Nat} {a b : Phase} (h : l[i]? = some a) (hp : b.prog = a.prog) (j : Nat) :
    ((l.set i b)[j]?).map Phase.prog = (l[j]?).map Phase.prog := by
  rw [List.getElem?_set]
  split
  · next e =>
    subst e
    have hi : i < l.length := (List.getElem?_eq_some_iff.1 h).1
    rw [if_pos hi, h]
    exact congrArg some hp
  · rfl

theorem set_self {l : List Phase} {i : Nat} {a : Phase} (b : Phase) (h : l[i]? = some a) : (l.set i b)[i]? = some b := by
  have hi : i < l.length := (List.getElem?_eq_some_iff.1 h).1
  rw [List.getElem?_set, if_pos rfl, if_pos hi]

theorem step_kind {t u : State} {i : Nat} (h : step t i = some u) : Kind t u i := by
  have hne : ∀ (b : Phase) (j : Nat), j ≠ i → ((t.threads.set i b)[j]?).map Phase.prog = (t.threads[j]?).map Phase.prog := by
    intro b j hj
    rw [List.getElem?_set, if_neg (Ne.symm hj)]
  unfold step at h
  split at h
  · cases h
  · cases h
  · next k f p e =>
    split at h
    · cases h
    · cases h; exact .none rfl rfl (set_same e rfl)
  · next k f p e =>
    split at h
    · cases h; exact .none rfl rfl (set_same e rfl)
    · cases h
  · next k f p e =>
    cases h
    refine .write k f p rfl rfl ?_ ?_ (hne _)
    · unfold progAt; rw [e]; rfl
    · unfold progAt; rw [set_self _ e]; rfl
  · next p e => cases h; exact .none rfl rfl (set_same e rfl)
  · next k c e =>
    split at h
    · cases h
    · cases h; exact .none rfl rfl (set_same e rfl)
  · next k c e =>
    cases h
    refine .read k c rfl rfl ?_ ?_ (hne _)
    · unfold progAt; rw [e]; rfl
    · unfold progAt; rw [set_self _ e]; rfl
  · next v c e => cases h; exact .none rfl rfl (set_same e rfl)

/-! ### The lock -/

def isWriter : Phase → Bool
  | .waiting .. | .writing .. | .written .. => true
  | _ => false

def isReader : Phase → Bool
  | .reading .. | .done .. => true
  | _ => false

def inside : Phase → Bool
  | .writing .. | .written .. => true
  | _ => false

structure Inv (s : State) : Prop where
  writer : s.threads.countP isWriter = if s.locked then 1 else 0
  readers : s.threads.countP isReader = s.readers
  alone : ∀ (i : Nat) (ph : Phase), s.threads[i]? = some ph → inside ph = true → s.readers = 0

theorem count_set (p : Phase → Bool) {l : List Phase} {i : Nat} {a : Phase} (b : Phase) (h : l[i]? = some a) :
    (l.set i b).countP p + (if p a then 1 else 0) = l.countP p + if p b then 1 else 0 := by
  obtain ⟨hi, e⟩ := List.getElem?_eq_some_iff.1 h
  rw [List.countP_set hi, e]
  have : p a = true → 0 < l.countP p := fun hp => List.countP_pos_iff.2 ⟨a, List.mem_of_getElem? h, hp⟩
  cases hp : p a
  · simp
  · have := this hp
    simp only [if_true]
    omega

theorem two {p : Phase → Bool} (h0 : p (.out (.ret [])) = false) {l : List Phase} {i j : Nat} {a b : Phase} (hij : i ≠ j)
    (hi : l[i]? = some a) (hj : l[j]? = some b) (ha : p a = true) (hb : p b = true) : 2 ≤ l.countP p := by
  have h1 := count_set p (.out (.ret [])) hi
  rw [h0, ha] at h1
  have h2 : 0 < (l.set i (.out (.ret []))).countP p :=
    List.countP_pos_iff.2 ⟨b, List.mem_of_getElem? (by rw [List.getElem?_set, if_neg hij]; exact hj), hb⟩
  simp only [if_true, Bool.false_eq_true, if_false] at h1
  omega

theorem inv_start (reg : Registry) (ps : List Prog) : Inv (start reg ps) where
  writer := by simp [start, List.countP_map, Function.comp_def, isWriter]
  readers := by simp [start, List.countP_map, Function.comp_def, isReader]
  alone := fun _ _ _ _ => rfl

theorem inv_step {t u : State} {i : Nat} (hi : Inv t) (h : step t i = some u) : Inv u := by
  obtain ⟨hw, hr, ha⟩ := hi
  have hin : ∀ (b : Phase), inside b = false → ∀ (j : Nat) (ph : Phase), (t.threads.set i b)[j]? = some ph → inside ph = true → t.readers = 0 := by
    intro b hb j ph hj hph
    rw [List.getElem?_set] at hj
    split at hj
    · split at hj
      · cases hj; rw [hb] at hph; cases hph
      · cases hj
    · exact ha j ph hj hph
  unfold step at h
  split at h
  · cases h
  · cases h
  · next k f p e =>
    split at h
    · cases h
    · next hl =>
      cases h
      have h1 := count_set isWriter (.waiting k f p) e
      have h2 := count_set isReader (.waiting k f p) e
      simp only [isWriter, isReader, if_true, if_false, Bool.false_eq_true, Nat.add_zero] at h1 h2
      rw [if_neg hl] at hw
      exact ⟨by simp only [if_true]; omega, h2.trans hr, hin _ rfl⟩
  · next k f p e =>
    split at h
    · next h0 =>
      cases h
      have h1 := count_set isWriter (.writing k f p) e
      have h2 := count_set isReader (.writing k f p) e
      simp only [isWriter, isReader, if_true, if_false, Bool.false_eq_true, Nat.add_zero] at h1 h2
      exact ⟨(Nat.add_right_cancel h1).trans hw, h2.trans hr, fun _ _ _ _ => h0⟩
    · cases h
  · next k f p e =>
    cases h
    have h1 := count_set isWriter (.written p) e
    have h2 := count_set isReader (.written p) e
    simp only [isWriter, isReader, if_true, if_false, Bool.false_eq_true, Nat.add_zero] at h1 h2
    exact ⟨(Nat.add_right_cancel h1).trans hw, h2.trans hr, fun _ _ _ _ => ha i _ e rfl⟩
  · next p e =>
    cases h
    have h1 := count_set isWriter (.out p) e
    have h2 := count_set isReader (.out p) e
    simp only [isWriter, isReader, if_true, if_false, Bool.false_eq_true, Nat.add_zero] at h1 h2
    refine ⟨?_, h2.trans hr, hin _ rfl⟩
    simp only [Bool.false_eq_true, if_false]
    split at hw <;> omega
  · next k c e =>
    split at h
    · cases h
    · next hl =>
      cases h
      have h1 := count_set isWriter (.reading k c) e
      have h2 := count_set isReader (.reading k c) e
      simp only [isWriter, isReader, if_true, if_false, Bool.false_eq_true, Nat.add_zero] at h1 h2
      refine ⟨h1.trans hw, by rw [← hr]; exact h2, fun j ph hj hph => ?_⟩
      exfalso
      have hpos : 0 < (t.threads.set i (.reading k c)).countP isWriter := by
        refine List.countP_pos_iff.2 ⟨ph, List.mem_of_getElem? hj, ?_⟩
        cases ph <;> first | rfl | cases hph
      rw [if_neg hl] at hw
      omega
  · next k c e =>
    cases h
    have h1 := count_set isWriter (.done (t.reg.query k) c) e
    have h2 := count_set isReader (.done (t.reg.query k) c) e
    simp only [isWriter, isReader, if_true, if_false, Bool.false_eq_true, Nat.add_zero] at h1 h2
    exact ⟨h1.trans hw, (Nat.add_right_cancel h2).trans hr, hin _ rfl⟩
  · next v c e =>
    cases h
    have h1 := count_set isWriter (.out (c v)) e
    have h2 := count_set isReader (.out (c v)) e
    simp only [isWriter, isReader, if_true, if_false, Bool.false_eq_true, Nat.add_zero] at h1 h2
    refine ⟨h1.trans hw, ?_, fun j ph hj hph => ?_⟩
    · show (t.threads.set i (.out (c v))).countP isReader = t.readers - 1
      omega
    · show t.readers - 1 = 0
      rw [hin _ rfl j ph hj hph]

theorem reach_inv {s t : State} (h : Reach s t) (hi : Inv s) : Inv t := by
  induction h with
  | refl => exact hi
  | step t u i _ h ih => exact inv_step ih h

/-! ### The map -/

theorem latest_write {old : Registry} {log : List (Nat × Access)} {k k' : Bytes} {v : Option (JVal → Except Err (Except Err JVal))}
    (h : Latest old log k v) (i : Nat) (f : JVal → Except Err (Except Err JVal)) :
    Latest old (log ++ [(i, .write k' f)]) k (if k = k' then some f else v) := by
  split
  · next e =>
    subst e
    exact .inl ⟨log, i, f, [], rfl, fun _ _ => List.not_mem_nil, rfl⟩
  · next e =>
    rcases h with ⟨b, j, g, a, h1, h2, h3⟩ | ⟨h1, h2⟩
    · refine .inl ⟨b, j, g, a ++ [(i, .write k' f)], by rw [h1]; simp, fun j' g' hm => ?_, h3⟩
      rcases List.mem_append.1 hm with hm | hm
      · exact h2 _ _ hm
      · cases List.mem_singleton.1 hm; exact e rfl
    · refine .inr ⟨fun j' g' hm => ?_, h2⟩
      rcases List.mem_append.1 hm with hm | hm
      · exact h1 _ _ hm
      · cases List.mem_singleton.1 hm; exact e rfl

theorem latest_read {old : Registry} {log : List (Nat × Access)} {k k' : Bytes} {v : Option (JVal → Except Err (Except Err JVal))}
    (h : Latest old log k v) (i : Nat) (w : Option (JVal → Except Err (Except Err JVal))) : Latest old (log ++ [(i, .read k' w)]) k v := by
  rcases h with ⟨b, j, g, a, h1, h2, h3⟩ | ⟨h1, h2⟩
  · refine .inl ⟨b, j, g, a ++ [(i, .read k' w)], by rw [h1]; simp, fun j' g' hm => ?_, h3⟩
    rcases List.mem_append.1 hm with hm | hm
    · exact h2 _ _ hm
    · cases List.mem_singleton.1 hm
  · refine .inr ⟨fun j' g' hm => ?_, h2⟩
    rcases List.mem_append.1 hm with hm | hm
    · exact h1 _ _ hm
    · cases List.mem_singleton.1 hm

/-- What happened between two states. -/
structure Went (s t : State) (seg : List (Nat × Access)) : Prop where
  log : t.log = s.log ++ seg
  reg : ∀ k, Latest s.reg seg k (t.reg.query k)
  reads : ∀ pre i k v post, seg = pre ++ (i, .read k v) :: post → Latest s.reg pre k v
  runs : ∀ i p q, progAt s i = some p → progAt t i = some q → Runs p (own i seg) q
  threads : ∀ i, (progAt s i).isSome = (progAt t i).isSome

theorem runs_write {p q : Prog} {l : List Access} {k : Bytes} {f : JVal → Except Err (Except Err JVal)} {r : Prog}
    (h : Runs p l q) (hq : q = .register k f r) : Runs p (l ++ [.write k f]) r := by
  induction h with
  | nil p => subst hq; exact .write _ _ _ _ _ (.nil _)
  | write k' f' p' l q _ ih => exact .write _ _ _ _ _ (ih hq)
  | read k' v c l q _ ih => exact .read _ _ _ _ _ (ih hq)

theorem runs_read {p q : Prog} {l : List Access} {k : Bytes} {v : Option (JVal → Except Err (Except Err JVal))}
    {c : Option (JVal → Except Err (Except Err JVal)) → Prog} (h : Runs p l q) (hq : q = .query k c) : Runs p (l ++ [.read k v]) (c v) := by
  induction h with
  | nil p => subst hq; exact .read _ _ _ _ _ (.nil _)
  | write k' f' p' l q _ ih => exact .write _ _ _ _ _ (ih hq)
  | read k' v c l q _ ih => exact .read _ _ _ _ _ (ih hq)

theorem own_other {i j : Nat} (h : j ≠ i) (seg : List (Nat × Access)) (a : Access) : own i (seg ++ [(j, a)]) = own i seg := by
  unfold own
  rw [List.filterMap_append]
  simp [h]

theorem own_same (i : Nat) (seg : List (Nat × Access)) (a : Access) : own i (seg ++ [(i, a)]) = own i seg ++ [a] := by
  unfold own
  rw [List.filterMap_append]
  simp

theorem snoc_split {α : Type} {seg pre post : List α} {a b : α} (h : seg ++ [a] = pre ++ b :: post) :
    (∃ post', seg = pre ++ b :: post') ∨ (pre = seg ∧ b = a) := by
  rcases List.eq_nil_or_concat post with rfl | ⟨l, x, rfl⟩
  · have := List.append_inj' h rfl
    exact .inr ⟨this.1.symm, (List.cons.inj this.2).1.symm⟩
  · refine .inl ⟨l, ?_⟩
    rw [List.concat_eq_append, ← List.cons_append, ← List.append_assoc] at h
    exact (List.append_inj' h rfl).1

theorem went {s t : State} (h : Reach s t) : ∃ seg, Went s t seg := by
  induction h with
  | refl =>
    refine ⟨[], by simp, fun k => .inr ⟨fun _ _ => List.not_mem_nil, rfl⟩, fun pre i k v post e => ?_, fun i p q h1 h2 => ?_, fun _ => rfl⟩
    · cases pre <;> cases e
    · rw [h1] at h2
      cases h2
      exact .nil _
  | step t u i _ h ih =>
    obtain ⟨seg, w⟩ := ih
    cases step_kind h with
    | none hl hr hp =>
      exact ⟨seg, hl.trans w.log, fun k => by rw [hr]; exact w.reg k, w.reads, fun i p q h1 h2 => w.runs i p q h1 (by rw [← hp i]; exact h2),
        fun i => by rw [hp i]; exact w.threads i⟩
    | write k f p hl hr ht hu hp =>
      refine ⟨seg ++ [(i, .write k f)], by rw [hl, w.log, List.append_assoc], fun k' => ?_, fun pre i' k' v' post e => ?_, fun j p' q h1 h2 => ?_, fun j => ?_⟩
      · have : u.reg.query k' = if k' = k then some f else t.reg.query k' := by
          rw [hr]
          unfold Registry.query Registry.register
          rw [List.lookup_cons]
          split <;> simp_all
        rw [this]
        exact latest_write (w.reg k') i f
      · rcases snoc_split e with ⟨post', e⟩ | ⟨-, e⟩
        · exact w.reads _ _ _ _ _ e
        · cases e
      · by_cases hj : i = j
        · subst hj
          rw [hu] at h2
          cases h2
          rw [own_same]
          exact runs_write (w.runs i p' _ h1 ht) rfl
        · rw [own_other hj]
          exact w.runs j p' q h1 (by rw [← hp j (Ne.symm hj)]; exact h2)
      · by_cases hj : j = i
        · subst hj
          rw [hu, w.threads j, ht]
          rfl
        · rw [hp j hj]; exact w.threads j
    | read k c hl hr ht hu hp =>
      refine ⟨seg ++ [(i, .read k (t.reg.query k))], by rw [hl, w.log, List.append_assoc], fun k' => ?_, fun pre i' k' v' post e => ?_, fun j p' q h1 h2 => ?_, fun j => ?_⟩
      · rw [hr]
        exact latest_read (w.reg k') i _
      · rcases snoc_split e with ⟨post', e⟩ | ⟨rfl, e'⟩
        · exact w.reads _ _ _ _ _ e
        · cases e'
          exact w.reg k
      · by_cases hj : i = j
        · subst hj
          rw [hu] at h2
          cases h2
          rw [own_same]
          exact runs_read (w.runs i p' _ h1 ht) rfl
        · rw [own_other hj]
          exact w.runs j p' q h1 (by rw [← hp j (Ne.symm hj)]; exact h2)
      · by_cases hj : j = i
        · subst hj
          rw [hu, w.threads j, ht]
          rfl
        · rw [hp j hj]; exact w.threads j

theorem decode_runs {r : Registry} {ms : List (Bytes × JVal)} : ∀ {cur m : Extensions} {l : List Access}, Runs (unmarshal ms cur) l (.ret m) →
    (∀ k v, Access.read k v ∈ l → k ∈ ms.map Prod.fst → v = r.query k) → m = decExtensions r ms cur := by
  induction ms with
  | nil =>
    intro cur m l h _
    cases h
    rfl
  | cons a ms ih =>
    intro cur m l h hl
    obtain ⟨k, v⟩ := a
    cases h with
    | read _ v' _ l _ h =>
      have e := hl k v' (.head _) (.head _)
      refine (ih h fun k' v' hm hk => hl k' v' (.tail _ hm) (.tail _ hk)).trans ?_
      subst e
      rfl

/-- One goroutine registers an extension while another one decodes it. -/
def twoThreads : List Prog := [.register b!"a" (fun _ => .ok (.ok .null)) (.ret []), unmarshal [(b!"a", .bool true)] []]

/-- The goroutines in a given order of steps. -/
def follow (s : State) : List Nat → Option State
  | [] => some s
  | i :: l => (step s i).bind (follow · l)

theorem follow_reach {s : State} : ∀ {l : List Nat} {t u : State}, Reach s t → follow t l = some u → Reach s u
  | [], _, _, h, e => by cases e; exact h
  | i :: l, t, u, h, e => by
    unfold follow at e
    cases hs : step t i with
    | none => rw [hs] at e; cases e
    | some v => rw [hs] at e; exact follow_reach (.step _ _ _ h hs) e

end Gltf.Reg

namespace Gltf

open Reg

/-- C93: at no time can one goroutine write the map of extensions while another one accesses it. -/
theorem C93_no_race (reg : Registry) (ps : List Prog) (s : State) (h : Reach (start reg ps) s) (i j : Nat) (hij : i ≠ j) (hw : Writes s i) :
    ¬ Writes s j ∧ ¬ Reads s j := by
  have hi := reach_inv h (inv_start reg ps)
  obtain ⟨k, f, p, e⟩ := hw
  constructor
  · rintro ⟨k', f', p', e'⟩
    have h1 := two (p := isWriter) rfl hij e e' rfl rfl
    have h2 := hi.writer
    split at h2 <;> omega
  · rintro ⟨k', c, e'⟩
    have h1 := hi.alone i _ e rfl
    have h2 : 0 < s.threads.countP isReader := List.countP_pos_iff.2 ⟨_, List.mem_of_getElem? e', rfl⟩
    rw [hi.readers, h1] at h2
    exact absurd h2 (Nat.lt_irrefl 0)

/-- C93: the goroutines never block each other for good: as long as one has not finished, one of them can go on. -/
theorem C93_progress (reg : Registry) (ps : List Prog) (s : State) (h : Reach (start reg ps) s) (i : Nat) (ph : Phase)
    (hi : s.threads[i]? = some ph) (hf : ∀ m, ¬ Finished s i m) : ∃ j t, step s j = some t := by
  have inv := reach_inv h (inv_start reg ps)
  -- a reader can always go on
  by_cases hr : s.readers = 0
  · by_cases hl : s.locked = true
    · have h1 := inv.writer
      rw [if_pos hl] at h1
      obtain ⟨w, hw, hp⟩ := List.countP_pos_iff.1 (show 0 < s.threads.countP isWriter by omega)
      obtain ⟨j, hj⟩ := List.getElem?_of_mem hw
      refine ⟨j, ?_⟩
      unfold step
      rw [hj]
      cases w with
      | waiting k f p => exact ⟨_, if_pos hr⟩
      | writing k f p => exact ⟨_, rfl⟩
      | written p => exact ⟨_, rfl⟩
      | out p => cases hp
      | reading k c => cases hp
      | done v c => cases hp
    · refine ⟨i, ?_⟩
      unfold step
      rw [hi]
      cases ph with
      | out p =>
        cases p with
        | ret m => exact absurd hi (hf m)
        | register k f p => exact ⟨_, if_neg hl⟩
        | query k c => exact ⟨_, if_neg hl⟩
      | waiting k f p => exact ⟨_, if_pos hr⟩
      | writing k f p => exact ⟨_, rfl⟩
      | written p => exact ⟨_, rfl⟩
      | reading k c => exact ⟨_, rfl⟩
      | done v c => exact ⟨_, rfl⟩
  · obtain ⟨w, hw, hp⟩ := List.countP_pos_iff.1 (show 0 < s.threads.countP isReader by have := inv.readers; omega)
    obtain ⟨j, hj⟩ := List.getElem?_of_mem hw
    refine ⟨j, ?_⟩
    unfold step
    rw [hj]
    cases w with
    | reading k c => exact ⟨_, rfl⟩
    | done v c => exact ⟨_, rfl⟩
    | out p => cases hp
    | waiting k f p => cases hp
    | writing k f p => cases hp
    | written p => cases hp

/-- C93: each query finds what was registered last before it, and each goroutine does what its program says with what its
queries found. -/
theorem C93_order (reg : Registry) (ps : List Prog) (s : State) (h : Reach (start reg ps) s) :
    (∀ pre i k v post, s.log = pre ++ (i, .read k v) :: post → Latest reg pre k v) ∧
    (∀ k, Latest reg s.log k (s.reg.query k)) ∧
    ∀ i p m, ps[i]? = some p → Finished s i m → Runs p (own i s.log) (.ret m) := by
  obtain ⟨seg, w⟩ := went h
  have e : s.log = seg := by rw [w.log]; rfl
  rw [e]
  refine ⟨w.reads, w.reg, fun i p m hp hf => w.runs i p _ ?_ ?_⟩
  · show ((ps.map Phase.out)[i]?).map Phase.prog = some p
    rw [List.getElem?_map, hp]
    rfl
  · unfold progAt
    rw [hf]
    rfl

/-- C93: a goroutine decodes extensions as if it were alone, if none of them is registered at the same time. -/
theorem C93_decode (s t : State) (h : Reach s t) (i : Nat)
    (ms : List (Bytes × JVal)) (cur m : Extensions) (hs : s.threads[i]? = some (.out (unmarshal ms cur))) (ht : Finished t i m)
    (hn : ∀ j k f, (j, Access.write k f) ∈ t.log.drop s.log.length → k ∉ ms.map Prod.fst) : m = decExtensions s.reg ms cur := by
  obtain ⟨seg, w⟩ := went h
  rw [w.log, List.drop_left] at hn
  have hr : Runs (unmarshal ms cur) (own i seg) (.ret m) := by
    refine w.runs i _ _ ?_ ?_
    · unfold progAt; rw [hs]; rfl
    · unfold progAt; rw [ht]; rfl
  refine decode_runs hr fun k v hm hk => ?_
  obtain ⟨⟨j, a⟩, h1, h2⟩ := List.mem_filterMap.1 hm
  split at h2
  · cases h2
    obtain ⟨pre, post, e⟩ := List.append_of_mem h1
    rcases w.reads pre j k v post e with ⟨b, j', f, a', h3, -, -⟩ | ⟨-, h3⟩
    · refine absurd hk (hn j' k f ?_)
      rw [e, h3]
      simp
    · exact h3
  · cases h2

/-- The registration comes first, or the query. While one goroutine is about to write, the other one waits. -/
example : (∃ s, Reach (start [] twoThreads) s ∧ Finished s 1 [(b!"a", .typed (.ok .null))] ∧ Finished s 0 []) ∧
    (∃ s, Reach (start [] twoThreads) s ∧ Finished s 1 [(b!"a", .raw (.bool true))] ∧ Finished s 0 []) ∧
    ∃ s, Reach (start [] twoThreads) s ∧ Writes s 0 ∧ step s 1 = none :=
  ⟨⟨_, follow_reach (l := [0, 0, 0, 0, 1, 1, 1]) .refl rfl, rfl, rfl⟩, ⟨_, follow_reach (l := [1, 1, 1, 0, 0, 0, 0]) .refl rfl, rfl, rfl⟩,
    ⟨_, follow_reach (l := [0, 0]) .refl rfl, ⟨_, _, _, rfl⟩, rfl⟩⟩

/-- The second goroutine decodes alone. -/
example : ∃ s t, Reach s t ∧ s.threads[1]? = some (.out (unmarshal [(b!"a", .bool true)] [])) ∧ Finished t 1 [(b!"a", .typed (.ok .null))] ∧
    ∀ j k f, (j, Access.write k f) ∈ t.log.drop s.log.length → k ∉ [(b!"a", JVal.bool true)].map Prod.fst := by
  obtain ⟨s, hs⟩ : ∃ s, follow (start [] twoThreads) [0, 0, 0, 0] = some s := ⟨_, rfl⟩
  obtain ⟨t, ht⟩ : ∃ t, follow s [1, 1, 1] = some t := by cases hs; exact ⟨_, rfl⟩
  refine ⟨s, t, follow_reach .refl ht, ?_, ?_, ?_⟩
  · cases hs; rfl
  · cases hs; cases ht; rfl
  · cases hs; cases ht
    intro j k f hm
    cases hm with
    | tail _ hm => cases hm

end Gltf
