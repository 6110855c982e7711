/-
What is printed is a text of RFC 8259.
-/
import Verif.Lemmas.TextSound

namespace Gltf

open Spec

theorem escByte_chars {b : UInt8} (hb : b < 0x80) {s t : Bytes} (h : Chars false s t) : Chars false (b :: s) (escByte b ++ t) := by
  unfold escByte
  split
  · next e => subst e; exact .short (by decide) h
  split
  · next e => subst e; exact .short (by decide) h
  split
  · next e => subst e; exact .short (by decide) h
  split
  · next e => subst e; exact .short (by decide) h
  split
  · next e => subst e; exact .short (by decide) h
  split
  · next e => subst e; exact .short (by decide) h
  split
  · next e => subst e; exact .short (by decide) h
  have hb' : b.toNat < 128 := UInt8.lt_iff_toNat_lt.1 hb
  have hn : (Char.ofNat b.toNat).toNat = b.toNat := ofNat_toNat' (.inl (by omega))
  have hc : String.utf8EncodeChar (Char.ofNat b.toNat) = [b] := by
    rw [utf8_low (by omega), hn, UInt8.ofNat_toNat]
  split
  · have key : ∀ b : Fin 128, (hex4 48 48 (hexDigit (b.val / 16)) (hexDigit (b.val % 16))) = some b.val := by decide +kernel
    have := key ⟨b.toNat, hb'⟩
    have := Chars.hex (Char.ofNat b.toNat) (by rw [hn]; exact hex4_iff.1 this) h
    rw [hc] at this
    exact this
  · next h1 h2 h3 h4 h5 h6 h7 h8 =>
    have := Chars.char (Char.ofNat b.toNat) (s := s) (t := t) (by
        rw [hn]
        apply Nat.le_of_not_lt
        intro hlt
        exact h8 (.inl (UInt8.lt_iff_toNat_lt.2 hlt)))
      (fun e => h1 (by
        have := congrArg Char.toNat e
        rw [hn] at this
        exact UInt8.toNat_inj.1 this))
      (fun e => h2 (by
        have := congrArg Char.toNat e
        rw [hn] at this
        exact UInt8.toNat_inj.1 this)) h
    rw [hc] at this
    exact this

theorem escape_chars : ∀ cs : List Char, Chars false (cs.flatMap String.utf8EncodeChar) (escape 0 (cs.flatMap String.utf8EncodeChar))
  | [] => .nil
  | c :: cs => by
    have ih := escape_chars cs
    rw [List.flatMap_cons]
    generalize cs.flatMap String.utf8EncodeChar = x at ih
    obtain ⟨b, s, e, ⟨h1, rfl⟩ | ⟨h1, h2, h3⟩⟩ := seqLen_char c x
    · rw [e]
      show Chars false (b :: x) ((escHead b x).1 ++ escape (escHead b x).2 x)
      unfold escHead
      rw [if_pos h1]
      exact escByte_chars h1 ih
    · have hd : (s ++ x).drop s.length = x := List.drop_left
      have ht : (s ++ x).take s.length = s := List.take_left
      have hlow : 0x80 ≤ c.toNat := by
        apply Nat.le_of_not_lt
        intro hlt
        rw [utf8_low hlt] at e
        injection e with _ e
        exact h2 e.symm
      show Chars false (String.utf8EncodeChar c ++ x) (escape 0 (String.utf8EncodeChar c ++ x))
      have e' : String.utf8EncodeChar c ++ x = b :: (s ++ x) := by rw [e]; rfl
      have key : escape 0 (String.utf8EncodeChar c ++ x) = (escHead b (s ++ x)).1 ++ escape (escHead b (s ++ x)).2 (s ++ x) := by
        rw [e']; rfl
      rw [key]
      unfold escHead
      rw [if_neg h1, h3]
      cases hs : s.length with
      | zero => exact absurd (List.length_eq_zero_iff.1 hs) h2
      | succ n =>
        simp only
        rw [← hs]
        have two : b = 0xE2 → s.length = 2 := by
          intro hb
          subst hb
          rw [← h3]
          cases s with
          | nil => exact absurd rfl h2
          | cons a s =>
            cases s with
            | nil =>
              cases x with
              | nil => simp [seqLen] at h3
              | cons y x =>
                simp only [List.cons_append, List.nil_append, List.length_cons, List.length_nil] at h3
                unfold seqLen at h3
                simp only at h3
                rw [if_neg (by decide), if_pos (by decide)] at h3
                split at h3 <;> cases h3
            | cons a' s =>
              simp only [List.cons_append, List.length_cons] at h3 ⊢
              unfold seqLen at h3 ⊢
              simp only at h3 ⊢
              rw [if_neg (by decide), if_pos (by decide)] at h3 ⊢
              split at h3
              · rw [if_pos (by assumption)]
              · cases h3
        split
        · next hE =>
          have hs2 : s = [0x80, 0xA8] := by rw [← ht, two hE.1]; exact hE.2
          have : String.utf8EncodeChar c = String.utf8EncodeChar '\u2028' := by
            rw [e, hE.1, hs2]; decide
          rw [this, escape_skip, hd]
          exact .hex '\u2028' (hex4_iff.1 (by decide)) ih
        split
        · next hE =>
          have hs2 : s = [0x80, 0xA9] := by rw [← ht, two hE.1]; exact hE.2
          have : String.utf8EncodeChar c = String.utf8EncodeChar '\u2029' := by
            rw [e, hE.1, hs2]; decide
          rw [this, escape_skip, hd]
          exact .hex '\u2029' (hex4_iff.1 (by decide)) ih
        · rw [ht, escape_skip, hd, ← e]
          refine .char c (by omega) ?_ ?_ ih
          · rintro rfl; exact absurd hlow (by decide)
          · rintro rfl; exact absurd hlow (by decide)

theorem printStr_text {s : Bytes} (h : IsUtf8 s) : ∃ t, printStr s = b!"\"" ++ t ++ b!"\"" ∧ Chars false s t := by
  obtain ⟨cs, rfl⟩ := h
  exact ⟨_, rfl, escape_chars cs⟩

mutual
theorem print_text {L : Layout} (hL : L.Blank) : (v : JVal) → JsonOk v → ∀ n, Text false (.value v) (v.print L n)
  | .null, _, n => .null
  | .bool true, _, n => .true
  | .bool false, _, n => .false
  | .num lit, hw, n => by
    cases hw with
    | num _ hw => exact .num hw
  | .str s, hw, n => by
    cases hw with
    | str _ hw =>
      obtain ⟨t, e, h⟩ := printStr_text hw
      show Text false _ (printStr s)
      rw [e]
      exact .str h
  | .arr [], hw, n => .arrNil (w := []) (by simp [IsBlank])
  | .arr (v :: l), hw, n => by
    cases hw with
    | arr _ hw =>
      have := print_elems hL l (fun x hx => hw x (.tail _ hx)) (n + 1) _ (hL.1 (n + 1)) _ (hL.1 n) v _ (print_text hL v (hw v (.head _)) (n + 1))
      simpa [JVal.print] using Text.arr this
  | .obj [], hw, n => .objNil (w := []) (by simp [IsBlank])
  | .obj ((k, v) :: l), hw, n => by
    cases hw with
    | obj _ hk hw =>
      have := print_members hL l (fun x hx => hk x (.tail _ hx)) (fun x hx => hw x (.tail _ hx)) (n + 1) _ (hL.1 (n + 1)) _ (hL.1 n) k (hk _ (.head _))
        v _ (print_text hL v (hw _ (.head _)) (n + 1))
      simpa [JVal.print] using Text.obj this
theorem print_elems {L : Layout} (hL : L.Blank) : (l : List JVal) → (∀ v ∈ l, JsonOk v) → ∀ n w, IsBlank w → ∀ w', IsBlank w' → ∀ v t,
    Text false (.value v) t → Text false (.elems (v :: l)) (w ++ t ++ printElems L n l ++ w')
  | [], _, n, w, hw, w', hw', v, t, h => by
    simpa [printElems] using Text.elem hw hw' h
  | v' :: l, hl, n, w, hw, w', hw', v, t, h => by
    have := print_elems hL l (fun x hx => hl x (.tail _ hx)) n _ (hL.1 n) _ hw' v' _ (print_text hL v' (hl v' (.head _)) n)
    have := Text.elems hw (w' := []) (by simp [IsBlank]) h this
    simpa [printElems] using this
theorem print_members {L : Layout} (hL : L.Blank) : (l : List (Bytes × JVal)) → (∀ m ∈ l, IsUtf8 m.1) → (∀ m ∈ l, JsonOk m.2) → ∀ n w, IsBlank w →
    ∀ w', IsBlank w' → ∀ k, IsUtf8 k → ∀ v t, Text false (.value v) t →
    Text false (.members ((k, v) :: l)) (w ++ printStr k ++ b!":" ++ L.colon ++ t ++ printMembers L n l ++ w')
  | [], _, _, n, w, hw, w', hw', k, hk, v, t, h => by
    obtain ⟨kt, e, hkt⟩ := printStr_text hk
    rw [e]
    have := Text.member hw (w1 := []) (by simp [IsBlank]) hL.2 hw' hkt h
    simpa [printMembers] using this
  | (k', v') :: l, hl, hv, n, w, hw, w', hw', k, hk, v, t, h => by
    obtain ⟨kt, e, hkt⟩ := printStr_text hk
    rw [e]
    have := print_members hL l (fun x hx => hl x (.tail _ hx)) (fun x hx => hv x (.tail _ hx)) n _ (hL.1 n) _ hw' k' (hl _ (.head _)) v' _
      (print_text hL v' (hv _ (.head _)) n)
    have := Text.members hw (w1 := []) (by simp [IsBlank]) hL.2 (w' := []) (by simp [IsBlank]) hkt h this
    simpa [printMembers] using this
end

theorem itemDepth_text {lax : Bool} {i : Item} {t : Bytes} (h : Text lax i t) :
    match i with
    | .value v => DepthLe t.length v
    | .elems l => ∀ v ∈ l, DepthLe t.length v
    | .members l => ∀ m ∈ l, DepthLe t.length m.2 := by
  induction h with
  | null => exact .null _
  | true => exact .bool _ _
  | false => exact .bool _ _
  | num _ => exact .num _ _
  | str _ => exact .str _ _
  | @arrNil w _ => exact depthLe_mono (.arr 0 [] (by simp)) (by simp)
  | @arr l t _ ih =>
    refine depthLe_mono (.arr t.length l ih) (by simp)
  | @objNil w _ => exact depthLe_mono (.obj 0 [] (by simp)) (by simp)
  | @obj l t _ ih =>
    refine depthLe_mono (.obj t.length l ih) (by simp)
  | @elem v w t w' _ _ _ ih =>
    intro x hx
    rw [List.mem_singleton.1 hx]
    exact depthLe_mono ih (by simp only [List.length_append]; omega)
  | @elems v l w t w' r _ _ _ _ ih1 ih2 =>
    intro x hx
    rcases List.mem_cons.1 hx with rfl | hx
    · exact depthLe_mono ih1 (by simp only [List.length_append]; omega)
    · exact depthLe_mono (ih2 x hx) (by simp only [List.length_append]; omega)
  | @member k v w kt w1 w2 t w' _ _ _ _ _ _ ih =>
    intro x hx
    rw [List.mem_singleton.1 hx]
    exact depthLe_mono ih (by simp only [List.length_append]; omega)
  | @members k v l w kt w1 w2 t w' r _ _ _ _ _ _ _ ih1 ih2 =>
    intro x hx
    rcases List.mem_cons.1 hx with rfl | hx
    · exact depthLe_mono ih1 (by simp only [List.length_append]; omega)
    · exact depthLe_mono (ih2 x hx) (by simp only [List.length_append]; omega)

/-- A text is nested at most as deep as it is long. -/
theorem text_depth {lax : Bool} {v : JVal} {t : Bytes} (h : Text lax (.value v) t) : DepthLe t.length v := itemDepth_text h

end Gltf
