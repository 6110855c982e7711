/-
Lemmas on readers: what is read does not depend on how the stream is split.
-/
import Verif.Model.Stream
import Verif.Lemmas.JsonText

namespace Gltf

/-! ### The underlying reader -/

/-- All reads return a multiple of four bytes. -/
structure Source.Aligned (s : Source) : Prop where
  data : s.data.length % 4 = 0
  sizes : ∀ c ∈ s.sizes, (c.2 + 1) % 4 = 0

/-- The number of reads that return nothing. -/
def Source.empties (s : Source) : Nat := (s.sizes.map fun p => p.1.val).sum

/-- The number of reads that return nothing before data comes. -/
def Source.gap (s : Source) : Nat :=
  match s.sizes with
  | [] => 0
  | p :: _ => p.1.val

theorem Source.gap_lt (s : Source) : s.gap < 100 := by
  unfold Source.gap
  split
  · decide
  · exact Fin.isLt _

/-- One call of `Read`. -/
structure Source.Step (s : Source) (n : Nat) (d : Bytes) (e : Option Err) (s' : Source) : Prop where
  read : s.read n = (d, e, s')
  le : d.length ≤ n
  data : s.data = d ++ s'.data
  fin : s'.fin = s.fin
  err : ∀ x ∈ e, x = s.fin ∧ s'.data = [] ∧ (d ≠ [] → s.fin = .eof)
  empties : s'.empties ≤ s.empties
  less : e = none → d ≠ [] ∧ s'.empties ≤ s.empties ∨ d = [] ∧ s'.empties < s.empties
  gap : e = none → d = [] → s'.gap < s.gap
  aligned : s.Aligned → n % 4 = 0 → d.length % 4 = 0 ∧ s'.Aligned

theorem Source.give_step {s : Source} {n k : Nat} (hr : s.read n = s.give k) (hk : 0 < k) (hkn : k ≤ n)
    (ha : s.Aligned → n % 4 = 0 → k % 4 = 0) : ∃ d e s', s.Step n d e s' := by
  by_cases hd : s.data = []
  · refine ⟨[], some s.fin, s, ?_, by simp, rfl, rfl, ?_, Nat.le_refl _, ?_, ?_, fun h _ => ⟨rfl, h⟩⟩
    · rw [hr]; unfold Source.give; rw [if_pos hd]
    · intro x hx; cases hx; exact ⟨rfl, hd, fun h => absurd rfl h⟩
    · intro h; cases h
    · intro h; cases h
  · have hem : Source.empties { s with data := s.data.drop k, sizes := s.sizes.tail } ≤ s.empties := by
      unfold Source.empties
      simp only
      cases s.sizes with
      | nil => exact Nat.le_refl _
      | cons p ps => simp only [List.tail_cons, List.map_cons, List.sum_cons]; omega
    refine ⟨s.data.take k, if s.data.drop k = [] ∧ s.together = true ∧ s.fin = .eof then some .eof else none,
      { s with data := s.data.drop k, sizes := s.sizes.tail }, ?_, ?_, (List.take_append_drop k s.data).symm, rfl, ?_, hem, ?_, ?_, ?_⟩
    · rw [hr]; unfold Source.give; rw [if_neg hd]
    · rw [List.length_take]; omega
    · intro x hx
      split at hx
      · rename_i h; cases hx; exact ⟨h.2.2.symm, h.1, fun _ => h.2.2⟩
      · cases hx
    · intro _
      left
      refine ⟨?_, hem⟩
      intro e
      have := List.length_pos_iff.2 hd
      have e2 := congrArg List.length e
      rw [List.length_take] at e2
      simp only [List.length_nil] at e2
      omega
    · intro _ e
      have := List.length_pos_iff.2 hd
      have e2 := congrArg List.length e
      rw [List.length_take] at e2
      simp only [List.length_nil] at e2
      omega
    · intro hal hn4
      have hk4 := ha hal hn4
      have hd4 := hal.data
      refine ⟨by rw [List.length_take]; omega, ?_, fun c hc => hal.sizes c (List.mem_of_mem_tail hc)⟩
      show (s.data.drop k).length % 4 = 0
      rw [List.length_drop]; omega

theorem Source.read_step (s : Source) {n : Nat} (hn : 0 < n) : ∃ d e s', s.Step n d e s' := by
  cases hs : s.sizes with
  | nil => exact give_step (k := n) (by unfold Source.read; rw [hs]) hn (Nat.le_refl n) fun _ h => h
  | cons p ps =>
    obtain ⟨e, c⟩ := p
    by_cases he : e.val = 0
    · refine give_step (k := min n (c + 1)) (by unfold Source.read; rw [hs]; simp only; rw [if_pos he]) (by omega) (by omega) ?_
      intro ha hn
      have := ha.sizes (e, c) (by rw [hs]; simp)
      simp only at this
      omega
    · have hem : Source.empties { s with sizes := (⟨e.val - 1, by omega⟩, c) :: ps } < s.empties := by
        unfold Source.empties
        simp only [hs, List.map_cons, List.sum_cons]
        omega
      refine ⟨[], none, { s with sizes := (⟨e.val - 1, by omega⟩, c) :: ps }, ?_, by simp, rfl, rfl, ?_, Nat.le_of_lt hem, ?_, ?_, ?_⟩
      · unfold Source.read; rw [hs]; simp only; rw [if_neg he]
      · intro x hx; cases hx
      · intro _
        exact .inr ⟨rfl, hem⟩
      · intro _ _
        unfold Source.gap
        simp only [hs]
        omega
      · intro ha _
        refine ⟨rfl, ha.data, fun x hx => ?_⟩
        rcases List.mem_cons.1 hx with rfl | hx
        · exact ha.sizes (e, c) (by rw [hs]; simp)
        · exact ha.sizes x (by rw [hs]; simp [hx])

/-! ### bufio.Reader -/

/-- A pending error is the one at the end of the data. -/
def BufReader.Inv (b : BufReader) : Prop := b.err = none ∨ (b.err = some b.src.fin ∧ b.src.data = [])

/-- The buffer and all reads have a multiple of four bytes. -/
structure BufReader.Aligned (b : BufReader) : Prop where
  buf : b.buf.length % 4 = 0
  src : b.src.Aligned

/-- The reader `b'` has the same data left as `b` after `d`. -/
structure BufReader.Follows (b : BufReader) (d : Bytes) (b' : BufReader) : Prop where
  rest : b.rest = d ++ b'.rest
  fin : b'.src.fin = b.src.fin
  inv : b'.Inv

theorem BufReader.Follows.refl {b : BufReader} (h : b.Inv) : b.Follows [] b := ⟨rfl, rfl, h⟩

theorem BufReader.Follows.trans {a b c : BufReader} {d e : Bytes} (h1 : a.Follows d b) (h2 : b.Follows e c) :
    a.Follows (d ++ e) c :=
  ⟨by rw [h1.rest, h2.rest, List.append_assoc], h2.fin.trans h1.fin, h2.inv⟩

theorem BufReader.read_spec {b : BufReader} (h : b.Inv) {n : Nat} (hn : 0 < n) :
    ∃ d e b', b.read n = (d, e, b') ∧ d.length ≤ n ∧ b.Follows d b' ∧ (∀ x ∈ e, x = b.src.fin ∧ b'.rest = [] ∧ (d ≠ [] → b.src.fin = .eof)) ∧
      b'.turns ≤ b.turns ∧ (e = none → b'.turns < b.turns) ∧ (b.Aligned → n % 4 = 0 → d.length % 4 = 0 ∧ b'.Aligned) := by
  unfold BufReader.read
  by_cases hb : b.buf = []
  · rw [if_pos hb]
    rcases h with he | ⟨he, hd⟩
    · rw [he]
      simp only
      split
      · obtain ⟨d, e, s', hs⟩ := b.src.read_step hn
        rw [hs.read]
        have hrest : b.rest = d ++ s'.data := by unfold BufReader.rest; rw [hb, hs.data]; rfl
        have hrest' : BufReader.rest { buf := b.buf, src := s' } = s'.data := by unfold BufReader.rest; simp only [hb]; rfl
        refine ⟨d, e, { buf := b.buf, src := s' }, rfl, hs.le, ⟨by rw [hrest, hrest'], hs.fin, .inl rfl⟩, ?_, ?_, ?_, fun ha hn4 =>
          ⟨(hs.aligned ha.src hn4).1, ha.buf, (hs.aligned ha.src hn4).2⟩⟩
        · intro x hx
          exact ⟨(hs.err x hx).1, by rw [hrest', (hs.err x hx).2.1], (hs.err x hx).2.2⟩
        · unfold BufReader.turns
          rw [hrest, hrest', List.length_append]
          show _ + s'.empties ≤ _ + b.src.empties
          have := hs.empties
          omega
        · intro e0
          unfold BufReader.turns
          rw [hrest, hrest', List.length_append]
          show _ + s'.empties < _ + b.src.empties
          rcases hs.less e0 with ⟨h1, h2⟩ | ⟨h1, h2⟩
          · have := List.length_pos_iff.2 h1; omega
          · omega
      · rename_i hlt
        obtain ⟨d, e, s', hs⟩ := b.src.read_step (n := bufSize) (by decide)
        rw [hs.read]
        simp only
        have hrest : b.rest = d ++ s'.data := by unfold BufReader.rest; rw [hb, hs.data]; rfl
        by_cases hd : d = []
        · rw [if_pos hd]
          subst hd
          have hrest' : BufReader.rest { buf := b.buf, src := s' } = s'.data := by unfold BufReader.rest; simp only [hb]; rfl
          refine ⟨[], e, { buf := b.buf, src := s' }, rfl, by simp, ⟨by rw [hrest, hrest'], hs.fin, .inl rfl⟩, ?_, ?_, ?_, fun ha _ =>
            ⟨rfl, ha.buf, (hs.aligned ha.src (by decide)).2⟩⟩
          · intro x hx
            exact ⟨(hs.err x hx).1, by rw [hrest', (hs.err x hx).2.1], (hs.err x hx).2.2⟩
          · unfold BufReader.turns
            rw [hrest, hrest', List.length_append]
            show _ + s'.empties ≤ _ + b.src.empties
            have := hs.empties
            omega
          · intro e0
            unfold BufReader.turns
            rw [hrest, hrest', List.length_append]
            show _ + s'.empties < _ + b.src.empties
            rcases hs.less e0 with ⟨h1, h2⟩ | ⟨h1, h2⟩
            · exact absurd rfl h1
            · simp only [List.length_nil]; omega
        · rw [if_neg hd]
          have hdl := List.length_pos_iff.2 hd
          have hinv : BufReader.Inv { buf := d.drop n, err := e, src := s' } := by
            cases e with
            | none => exact .inl rfl
            | some x => exact .inr ⟨by rw [(hs.err x rfl).1, ← hs.fin], (hs.err x rfl).2.1⟩
          have hrest' : BufReader.rest { buf := d.drop n, err := e, src := s' } = d.drop n ++ s'.data := rfl
          have hlt : BufReader.turns { buf := d.drop n, err := e, src := s' } < b.turns := by
            unfold BufReader.turns
            rw [hrest, hrest', List.length_append, List.length_append, List.length_drop]
            show _ + s'.empties < _ + b.src.empties
            have : s'.empties ≤ b.src.empties := hs.empties
            omega
          refine ⟨d.take n, none, { buf := d.drop n, err := e, src := s' }, rfl, ?_, ⟨?_, hs.fin, hinv⟩, ?_, Nat.le_of_lt hlt, fun _ => hlt,
            fun ha hn4 => ⟨?_, ?_, ?_⟩⟩
          · rw [List.length_take]; omega
          · rw [hrest, hrest', ← List.append_assoc, List.take_append_drop]
          · intro x hx; cases hx
          · have := (hs.aligned ha.src (by decide)).1
            rw [List.length_take]
            omega
          · have := (hs.aligned ha.src (by decide)).1
            show (d.drop n).length % 4 = 0
            rw [List.length_drop]
            omega
          · exact (hs.aligned ha.src (by decide)).2
    · rw [he]
      simp only
      have hr : b.rest = [] := by unfold BufReader.rest; rw [hb, hd]; rfl
      exact ⟨[], some b.src.fin, _, rfl, by simp, ⟨rfl, rfl, .inl rfl⟩, fun x hx => by cases hx; exact ⟨rfl, hr, fun h => absurd rfl h⟩,
        Nat.le_refl _, (fun h => by cases h), fun ha _ => ⟨rfl, ha.buf, ha.src⟩⟩
  · rw [if_neg hb]
    have hdl := List.length_pos_iff.2 hb
    have hlt : BufReader.turns { b with buf := b.buf.drop n } < b.turns := by
      unfold BufReader.turns BufReader.rest
      simp only [List.length_append, List.length_drop]
      omega
    refine ⟨b.buf.take n, none, _, rfl, ?_, ⟨?_, rfl, h⟩, ?_, Nat.le_of_lt hlt, fun _ => hlt, fun ha hn4 => ⟨?_, ?_, ha.src⟩⟩
    · rw [List.length_take]; omega
    · unfold BufReader.rest
      rw [← List.append_assoc, List.take_append_drop]
    · intro x hx; cases hx
    · have := ha.buf
      rw [List.length_take]
      omega
    · have := ha.buf
      show (b.buf.drop n).length % 4 = 0
      rw [List.length_drop]
      omega

theorem BufReader.fillLoop_spec : ∀ (i : Nat) {b : BufReader}, b.buf.length < bufSize → b.src.gap < i →
    b.Follows [] (b.fillLoop i) ∧ (b.Aligned → (b.fillLoop i).Aligned) ∧
      ((b.fillLoop i).err ≠ none ∨ b.buf.length < (b.fillLoop i).buf.length)
  | 0, b, _, h => absurd h (by omega)
  | i + 1, b, hl, hg => by
    simp only [fillLoop]
    obtain ⟨d, e, s', hs⟩ := b.src.read_step (n := bufSize - b.buf.length) (by omega)
    rw [hs.read]
    simp only
    have hal : b.Aligned → (bufSize - b.buf.length) % 4 = 0 := fun ha => by have := ha.buf; unfold bufSize at *; omega
    split
    · rename_i hc
      obtain ⟨rfl, rfl⟩ := hc
      have ih := fillLoop_spec i (b := { b with src := s' }) hl (by have := hs.gap rfl rfl; show s'.gap < i; omega)
      refine ⟨⟨?_, ih.1.fin.trans hs.fin, ih.1.inv⟩, fun ha => ih.2.1 ⟨ha.buf, (hs.aligned ha.src (hal ha)).2⟩, ih.2.2⟩
      have h1 := ih.1.rest
      unfold BufReader.rest at h1 ⊢
      rw [hs.data]
      exact h1
    · rename_i hc
      have hinv : BufReader.Inv { buf := b.buf ++ d, err := e, src := s' } := by
        cases e with
        | none => exact .inl rfl
        | some x => exact .inr ⟨by rw [(hs.err x rfl).1, ← hs.fin], (hs.err x rfl).2.1⟩
      refine ⟨⟨?_, hs.fin, hinv⟩, fun ha => ⟨?_, (hs.aligned ha.src (hal ha)).2⟩, ?_⟩
      · unfold BufReader.rest
        simp only [List.nil_append]
        rw [hs.data, List.append_assoc]
      · have h1 := ha.buf
        have h2 := (hs.aligned ha.src (hal ha)).1
        show (b.buf ++ d).length % 4 = 0
        rw [List.length_append]; omega
      · by_cases he : e = none
        · right
          have hd : d ≠ [] := fun hd => hc ⟨hd, he⟩
          have := List.length_pos_iff.2 hd
          show b.buf.length < (b.buf ++ d).length
          rw [List.length_append]; omega
        · exact .inl he

theorem BufReader.fill_spec {b : BufReader} (hl : b.buf.length < bufSize) :
    b.Follows [] b.fill ∧ (b.Aligned → b.fill.Aligned) ∧ (b.fill.err ≠ none ∨ b.buf.length < b.fill.buf.length) :=
  fillLoop_spec 100 hl b.src.gap_lt

theorem BufReader.peekLoop_spec {n : Nat} (hn : n ≤ bufSize) : ∀ (fuel : Nat) {b : BufReader}, b.Inv → n < fuel + b.buf.length ∨ b.err ≠ none ∧ 0 < fuel →
    b.Follows [] (b.peekLoop fuel n) ∧ (b.Aligned → (b.peekLoop fuel n).Aligned) ∧
      (n ≤ (b.peekLoop fuel n).buf.length ∨ (b.peekLoop fuel n).rest.length < n)
  | 0, b, h, hf => by
    refine ⟨.refl h, fun h => h, .inl ?_⟩
    rcases hf with hf | hf
    · show n ≤ b.buf.length; omega
    · omega
  | fuel + 1, b, h, hf => by
    simp only [peekLoop]
    split
    · rename_i hc
      obtain ⟨h1, h3, h2⟩ := fill_spec hc.2.1
      have ih := peekLoop_spec hn fuel h1.inv (by
        rcases h2 with h2 | h2
        · by_cases hf0 : 0 < fuel
          · exact .inr ⟨h2, hf0⟩
          · rcases hf with hf | hf
            · omega
            · exact absurd hc.2.2 hf.1
        · rcases hf with hf | hf
          · left; omega
          · exact absurd hc.2.2 hf.1)
      exact ⟨h1.trans ih.1, fun ha => ih.2.1 (h3 ha), ih.2.2⟩
    · rename_i hc
      refine ⟨.refl h, fun h => h, ?_⟩
      by_cases hl : n ≤ b.buf.length
      · exact .inl hl
      · right
        have he : b.err ≠ none := fun e => hc ⟨by omega, by omega, e⟩
        rcases h with h | ⟨_, h⟩
        · exact absurd h he
        · unfold BufReader.rest; rw [h, List.append_nil]; omega

theorem BufReader.peek_spec {b : BufReader} (h : b.Inv) {n : Nat} (hn : n ≤ bufSize) :
    ∃ b', b.Follows [] b' ∧ (b.Aligned → b'.Aligned) ∧
      ((b.rest.length < n ∧ b.peek n = (none, b')) ∨
       (n ≤ b.rest.length ∧ n ≤ b'.buf.length ∧ b.peek n = (some (b.rest.take n), b'))) := by
  obtain ⟨h1, h3, h2⟩ := peekLoop_spec hn (n + 1) h (by left; omega)
  have hr : b.rest = (b.peekLoop (n + 1) n).rest := h1.rest
  unfold BufReader.peek
  simp only
  by_cases hl : (b.peekLoop (n + 1) n).buf.length < n
  · rw [if_pos hl]
    refine ⟨{ b.peekLoop (n + 1) n with err := none }, ⟨hr, h1.fin, .inl rfl⟩, fun ha => ⟨(h3 ha).buf, (h3 ha).src⟩, .inl ⟨?_, rfl⟩⟩
    rw [hr]; omega
  · rw [if_neg hl]
    refine ⟨_, h1, h3, .inr ⟨?_, by omega, ?_⟩⟩
    · rw [hr]; unfold BufReader.rest; rw [List.length_append]; omega
    · rw [hr]; unfold BufReader.rest
      rw [List.take_append_of_le_length (by omega)]

/-- The bytes that are buffered are read at once. -/
theorem BufReader.read_buffered {b : BufReader} (h : b.Inv) {n : Nat} (hn : 0 < n) (hl : n ≤ b.buf.length) :
    ∃ b', b.read n = (b.rest.take n, none, b') ∧ b.Follows (b.rest.take n) b' ∧ (b.Aligned → n % 4 = 0 → b'.Aligned) := by
  have hb : b.buf ≠ [] := by intro e; rw [e] at hl; simp at hl; omega
  unfold BufReader.read
  rw [if_neg hb]
  have ht : b.rest.take n = b.buf.take n := by unfold BufReader.rest; rw [List.take_append_of_le_length hl]
  rw [ht]
  refine ⟨_, rfl, ⟨?_, rfl, h⟩, fun ha hd => ⟨?_, ha.src⟩⟩
  · unfold BufReader.rest; rw [← List.append_assoc, List.take_append_drop]
  · have := ha.buf
    show (b.buf.drop n).length % 4 = 0
    rw [List.length_drop]
    omega

/-- io.ReadFull returns the next `n` bytes, or the error for what is missing. -/
theorem BufReader.readFull_spec : ∀ (fuel n : Nat) (acc : Bytes) {b : BufReader}, b.Inv → b.turns < fuel →
    ∃ b', (n ≤ b.rest.length ∧ b.readFull fuel n acc = (.ok (acc ++ b.rest.take n), b') ∧
        b.Follows (b.rest.take n) b' ∧ (b.Aligned → n % 4 = 0 → b'.Aligned)) ∨
      (b.rest.length < n ∧ b.Follows b.rest b' ∧
        b.readFull fuel n acc = (.err (if b.src.fin = .eof ∧ acc ++ b.rest ≠ [] then .unexpectedEOF else b.src.fin), b'))
  | 0, n, acc, b, _, hf => absurd hf (by omega)
  | fuel + 1, n, acc, b, h, hf => by
    simp only [readFull]
    by_cases hn : n = 0
    · subst hn
      rw [if_pos rfl]
      exact ⟨b, .inl ⟨by omega, by simp, .refl h, fun ha _ => ha⟩⟩
    · rw [if_neg hn]
      obtain ⟨d, e, b', hr, hl, hfo, he, _, ht, h4⟩ := read_spec h (n := n) (by omega)
      rw [hr]
      have hrl : b.rest.length = d.length + b'.rest.length := by rw [hfo.rest, List.length_append]
      cases e with
      | some e =>
        obtain ⟨rfl, hrest, -⟩ := he e rfl
        have hd : b.rest = d := by rw [hfo.rest, hrest, List.append_nil]
        simp only
        split
        · rename_i hnd
          have htk : b.rest.take n = d := by rw [hd]; exact List.take_of_length_le hl
          refine ⟨b', .inl ⟨by rw [hd]; exact hnd, by rw [htk], by rw [htk]; exact hfo, fun ha hn4 => (h4 ha hn4).2⟩⟩
        · rename_i hnd
          refine ⟨b', .inr ⟨by rw [hd]; omega, by rw [hd]; exact hfo, by rw [hd]⟩⟩
      | none =>
        simp only
        obtain ⟨b'', hc⟩ := readFull_spec fuel (n - d.length) (acc ++ d) hfo.inv (by have := ht rfl; omega)
        refine ⟨b'', ?_⟩
        rcases hc with ⟨h1, h2, h3, h5⟩ | ⟨h1, h2, h5⟩
        · left
          have ht : b.rest.take n = d ++ b'.rest.take (n - d.length) := by
            rw [hfo.rest, List.take_append, List.take_of_length_le hl]
          refine ⟨by omega, ?_, ?_, fun ha hn4 => ?_⟩
          · rw [h2, ht, List.append_assoc]
          · rw [ht]; exact hfo.trans h3
          · have := h4 ha hn4
            exact h5 this.2 (by omega)
        · right
          refine ⟨by omega, ?_, ?_⟩
          · have := hfo.trans h2
            rw [← hfo.rest] at this
            exact this
          · rw [h5, hfo.fin, hfo.rest, List.append_assoc]

theorem BufReader.full_spec (n : Nat) {b : BufReader} (h : b.Inv) :
    ∃ b', (n ≤ b.rest.length ∧ b.full n = (.ok (b.rest.take n), b') ∧
        b.Follows (b.rest.take n) b' ∧ (b.Aligned → n % 4 = 0 → b'.Aligned)) ∨
      (b.rest.length < n ∧ b.Follows b.rest b' ∧
        b.full n = (.err (if b.src.fin = .eof ∧ b.rest ≠ [] then .unexpectedEOF else b.src.fin), b')) :=
  readFull_spec (b.turns + 1) n [] h (Nat.lt_succ_self _)

/-! ### io.LimitedReader -/

/-- What can be read. -/
def LimReader.stream (l : LimReader) : Bytes :=
  match l.limit with
  | none => l.r.rest
  | some k => l.r.rest.take k

/-- The error at the end. -/
def LimReader.fin (l : LimReader) : Err :=
  match l.limit with
  | none => l.r.src.fin
  | some k => if k ≤ l.r.rest.length then .eof else l.r.src.fin

/-- The limit is a multiple of four. -/
def LimReader.Aligned (l : LimReader) : Prop := l.r.Aligned ∧ ∀ k ∈ l.limit, k % 4 = 0

/-- The reader `l'` has the same data left as `l` after `d`. -/
structure LimReader.Follows (l : LimReader) (d : Bytes) (l' : LimReader) : Prop where
  stream : l.stream = d ++ l'.stream
  fin : l'.fin = l.fin
  buf : l.r.Follows d l'.r

theorem LimReader.Follows.refl {l : LimReader} (h : l.r.Inv) : l.Follows [] l := ⟨rfl, rfl, .refl h⟩

theorem LimReader.Follows.trans {a b c : LimReader} {d e : Bytes} (h1 : a.Follows d b) (h2 : b.Follows e c) :
    a.Follows (d ++ e) c :=
  ⟨by rw [h1.stream, h2.stream, List.append_assoc], h2.fin.trans h1.fin, h1.buf.trans h2.buf⟩

theorem LimReader.read_spec {l : LimReader} (h : l.r.Inv) {n : Nat} (hn : 0 < n) :
    ∃ d e l', l.read n = (d, e, l') ∧ d.length ≤ n ∧ l.Follows d l' ∧
      (∀ x ∈ e, x = l.fin ∧ l'.stream = []) ∧ l'.r.turns ≤ l.r.turns ∧ (e = none → l'.r.turns < l.r.turns) ∧
      (l.Aligned → n % 4 = 0 → d.length % 4 = 0 ∧ l'.Aligned) := by
  obtain ⟨limit, r⟩ := l
  unfold LimReader.read
  cases limit with
  | none =>
    simp only
    obtain ⟨d, e, b', hr, hl, hf, he, hle, ht, h4⟩ := BufReader.read_spec h hn
    have hr' : r.read n = (d, e, b') := hr
    rw [hr']
    exact ⟨d, e, { limit := none, r := b' }, rfl, hl, ⟨hf.rest, hf.fin, hf⟩, fun x hx => ⟨(he x hx).1, (he x hx).2.1⟩, hle, ht, fun hal hn4 =>
      ⟨(h4 hal.1 hn4).1, (h4 hal.1 hn4).2, fun k hk => by cases hk⟩⟩
  | some k =>
    cases k with
    | zero =>
      exact ⟨[], some .eof, _, rfl, by simp, .refl h, fun x hx => by cases hx; exact ⟨by simp [LimReader.fin], by simp [LimReader.stream]⟩,
        Nat.le_refl _, (fun h => by cases h), fun h _ => ⟨rfl, h⟩⟩
    | succ k =>
      simp only
      obtain ⟨d, e, b', hr, hld, hf, he, hle, ht, h4⟩ := BufReader.read_spec h (n := min n (k + 1)) (by omega)
      have hr' : r.read (min n (k + 1)) = (d, e, b') := hr
      rw [hr']
      have hl : r.rest.length = d.length + b'.rest.length := by
        have := congrArg List.length hf.rest
        rwa [List.length_append] at this
      have hfo : LimReader.Follows { limit := some (k + 1), r := r } d { limit := some (k + 1 - d.length), r := b' } := by
        refine ⟨?_, ?_, hf⟩
        · unfold LimReader.stream
          simp only
          have e : r.rest = d ++ b'.rest := hf.rest
          rw [e, List.take_append, List.take_of_length_le (by omega)]
        · unfold LimReader.fin
          simp only
          have e : b'.src.fin = r.src.fin := hf.fin
          rw [e]
          by_cases hk : k + 1 ≤ r.rest.length
          · rw [if_pos hk, if_pos (by omega)]
          · rw [if_neg hk, if_neg (by omega)]
      refine ⟨d, e, { limit := some (k + 1 - d.length), r := b' }, rfl, by omega, hfo, ?_, hle, ht, fun hal hn4 => ?_⟩
      · intro x hx
        obtain ⟨h1, h2, h3⟩ := he x hx
        have h1' : x = r.src.fin := h1
        refine ⟨?_, by unfold LimReader.stream; simp only; rw [h2]; simp⟩
        unfold LimReader.fin
        simp only
        split
        · rename_i hk
          rw [h2] at hl
          simp only [List.length_nil] at hl
          rw [h1']
          exact h3 (List.length_pos_iff.1 (by omega))
        · exact h1'
      · have hk4 := hal.2 (k + 1) rfl
        have := h4 hal.1 (by omega)
        refine ⟨this.1, this.2, ?_⟩
        intro j hj
        cases hj
        omega

/-! ### Values -/

/-- The value at the beginning of a stream that ends with an error. -/
def valueOf (s : Bytes) (fin : Err) : Res JVal :=
  match parseTop s with
  | .ok v _ => .ok v
  | .bad => .err (.msg "invalid character")
  | .more =>
    match fin with
    | .eof =>
      match parseTop (s ++ [32]) with
      | .ok v _ => .ok v
      | _ => .err (if skipWs s = [] then .eof else .unexpectedEOF)
    | e => .err e

/-- What is read after `buf` is enough to know the value. -/
def Enough (buf used : Bytes) (l : LimReader) : Prop := parseTop (buf ++ used) ≠ .more ∨ l.stream = []

theorem readValue_spec {P : Prop} : ∀ (fuel : Nat) {l : LimReader} (buf : Bytes) (cap : Nat) (pending : Option Err), l.r.Inv →
    l.r.turns + 1 + (if pending = none then 1 else 0) ≤ fuel →
    (∀ e ∈ pending, l.stream = [] ∧ e = l.fin) →
    (P → l.Aligned ∧ cap % 4 = 0 ∧ buf.length % 4 = 0) → buf.length ≤ cap →
    (readValue fuel l buf cap pending).1 = valueOf (buf ++ l.stream) l.fin ∧
    ∃ used, l.Follows used (readValue fuel l buf cap pending).2 ∧ Enough buf used (readValue fuel l buf cap pending).2 ∧
      (P → used.length % 4 = 0 ∧ (readValue fuel l buf cap pending).2.Aligned)
  | 0, l, buf, cap, pending, _, hf, _, _, _ => absurd hf (by split <;> omega)
  | fuel + 1, l, buf, cap, pending, h, hf, hp, ha, hc => by
    simp only [readValue]
    have hm := parseTop_mono buf l.stream
    have hal : P → (0 : Nat) % 4 = 0 ∧ l.Aligned := fun p => ⟨rfl, (ha p).1⟩
    cases hb : parseTop buf with
    | ok v r =>
      rw [hb] at hm
      refine ⟨?_, [], .refl h, .inl ?_, hal⟩
      · unfold valueOf
        rw [show parseTop (buf ++ l.stream) = .ok v (r ++ l.stream) from hm]
      · rw [List.append_nil, hb]; intro e; cases e
    | bad =>
      rw [hb] at hm
      refine ⟨?_, [], .refl h, .inl ?_, hal⟩
      · unfold valueOf
        rw [show parseTop (buf ++ l.stream) = .bad from hm]
      · rw [List.append_nil, hb]; intro e; cases e
    | more =>
      cases pending with
      | some e =>
        obtain ⟨hs, hfin⟩ := hp e rfl
        rw [hs, List.append_nil, ← hfin]
        unfold valueOf
        rw [hb]
        cases e with
        | eof =>
          simp only
          cases hq : parseTop (buf ++ [32]) with
          | ok v r => exact ⟨rfl, [], .refl h, .inr hs, hal⟩
          | more => exact ⟨rfl, [], .refl h, .inr hs, hal⟩
          | bad => exact ⟨rfl, [], .refl h, .inr hs, hal⟩
        | shortBuffer => exact ⟨rfl, [], .refl h, .inr hs, hal⟩
        | unexpectedEOF => exact ⟨rfl, [], .refl h, .inr hs, hal⟩
        | io c => exact ⟨rfl, [], .refl h, .inr hs, hal⟩
        | msg s => exact ⟨rfl, [], .refl h, .inr hs, hal⟩
      | none =>
        simp only
        generalize hcap : (if cap - buf.length < 512 then 2 * cap + 512 else cap) = cap'
        have hcap1 : buf.length + 512 ≤ cap' := by split at hcap <;> omega
        have hcap2 : P → cap' % 4 = 0 ∧ buf.length % 4 = 0 := by
          intro h; have := ha h; split at hcap <;> omega
        simp only [if_true] at hf
        obtain ⟨d, e, l', hr, hl, hfo, he, hle, ht, h4⟩ := LimReader.read_spec h (n := cap' - buf.length) (by omega)
        rw [hr]
        simp only
        obtain ⟨h1, used, h2, h3, h5⟩ := readValue_spec (P := P) fuel (l := l') (buf ++ d) cap' e hfo.buf.inv
          (by
            cases e with
            | none => rw [if_pos rfl]; have := ht rfl; omega
            | some x => rw [if_neg (by simp)]; omega)
          (fun x hx => ⟨(he x hx).2, by rw [hfo.fin]; exact (he x hx).1⟩)
          (fun p => by
            have h6 := hcap2 p
            have h7 := h4 (ha p).1 (by omega)
            refine ⟨h7.2, h6.1, ?_⟩
            rw [List.length_append]; omega)
          (by rw [List.length_append]; omega)
        refine ⟨?_, d ++ used, hfo.trans h2, ?_, fun p => ?_⟩
        · rw [h1, hfo.fin, hfo.stream, List.append_assoc]
        · unfold Enough at h3 ⊢; rwa [← List.append_assoc]
        · have h6 := hcap2 p
          have h7 := h4 (ha p).1 (by omega)
          refine ⟨?_, (h5 p).2⟩
          have := (h5 p).1
          rw [List.length_append]; omega

/-- Reading a value from a reader that starts with it: the result does not depend on how the stream is split. -/
theorem readJson_spec {l : LimReader} (h : l.r.Inv) :
    l.readJson.1 = valueOf l.stream l.fin ∧
    ∃ used, l.Follows used l.readJson.2 ∧ Enough [] used l.readJson.2 ∧ (l.Aligned → used.length % 4 = 0 ∧ l.readJson.2.Aligned) := by
  unfold LimReader.readJson
  exact readValue_spec (P := l.Aligned) _ [] 0 none h (by rw [if_pos rfl]; omega) (by intro e he; cases he)
    (fun ha => ⟨ha, rfl, rfl⟩) (by simp)

/-- The bytes that are read contain the value. -/
theorem enough_le {text rest used : Bytes} {v : JVal} {l : LimReader} (hv : parseTop (text ++ rest) = .ok v rest)
    (hs : text ++ rest = used ++ l.stream) (he : Enough [] used l) : text.length ≤ used.length := by
  have hlen := congrArg List.length hs
  rw [List.length_append, List.length_append] at hlen
  rcases he with he | he
  · rw [List.nil_append] at he
    have hm := parseTop_mono used l.stream
    rw [← hs, hv] at hm
    cases hu : parseTop used with
    | more => exact absurd hu he
    | bad => rw [hu] at hm; cases hm
    | ok w r =>
      rw [hu] at hm
      have hm' : (PRes.ok v rest : PRes JVal) = .ok w (r ++ l.stream) := hm
      injection hm' with _ e
      have := congrArg List.length e
      rw [List.length_append] at this
      omega
  · rw [he] at hlen
    simp at hlen
    omega

end Gltf
