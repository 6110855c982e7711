/-
The text form of numbers written by Go reads back.
-/
import Verif.Model.GoFloat
import Verif.Lemmas.JsonFloat
import Verif.Spec.DocNorm

namespace Gltf

open Spec

/-- A number without sign. -/
def IsUnsigned (s : Bytes) : Prop :=
  ∃ int frac exp : Bytes, s = int ++ frac ++ exp ∧
    (int = b!"0" ∨ (IsDigits int ∧ int.head? ≠ some 48)) ∧
    (frac = [] ∨ ∃ ds, IsDigits ds ∧ frac = b!"." ++ ds) ∧
    (exp = [] ∨ ∃ e s ds, (e = b!"e" ∨ e = b!"E") ∧ (s = [] ∨ s = b!"+" ∨ s = b!"-") ∧ IsDigits ds ∧ exp = e ++ s ++ ds)

theorem isUnsigned_number {s : Bytes} (h : IsUnsigned s) (neg : Bool) : IsNumber ((if neg then b!"-" else []) ++ s) := by
  obtain ⟨int, frac, exp, rfl, h1, h2, h3⟩ := h
  refine ⟨if neg then b!"-" else [], int, frac, exp, by simp only [List.append_assoc], ?_, h1, h2, h3⟩
  cases neg
  · exact .inl rfl
  · exact .inr rfl

theorem printNat_pos {m : Nat} (h : m ≠ 0) : (printNat m).head? ≠ some 48 := by
  rcases printNat_int m with h0 | h0
  · exfalso
    have h1 := readNat_printNat m
    rw [h0] at h1
    have : readNat b!"0" = some 0 := by decide
    rw [this] at h1
    injection h1 with h1
    exact h h1.symm
  · exact h0.2

theorem zeros_digits (n : Nat) : ∀ c ∈ List.replicate n (48 : UInt8), 48 ≤ c ∧ c ≤ 57 := by
  intro c hc
  rw [(List.mem_replicate.1 hc).2]
  decide

theorem fmtF_unsigned (m : Nat) (e : Int) : IsUnsigned (fmtF m e) := by
  have hd := printNat_digits m
  unfold fmtF
  simp only
  split
  · refine ⟨_, [], [], by rw [List.append_nil, List.append_nil], ?_, .inl rfl, .inl rfl⟩
    split
    · rw [List.append_nil]; exact printNat_int m
    · rename_i hm
      refine .inr ⟨⟨by simp [hd.1], ?_⟩, ?_⟩
      · intro c hc
        rcases List.mem_append.1 hc with h | h
        · exact hd.2 c h
        · exact zeros_digits _ c h
      · have := printNat_pos hm
        generalize printNat m = ds at hd this
        cases ds with
        | nil => exact absurd rfl hd.1
        | cons c ds => exact this
  · rename_i he
    split
    · rename_i hk
      have hk1 : 1 ≤ (-e).toNat := by omega
      refine ⟨_, _, [], (by rw [List.append_nil, List.append_assoc]), ?_, .inr ⟨(printNat m).drop ((printNat m).length - (-e).toNat), ⟨?_, ?_⟩, rfl⟩, .inl rfl⟩
      · have h2 : 2 ≤ (printNat m).length := by omega
        rcases printNat_int m with h0 | h0
        · rw [h0] at h2; exact absurd h2 (by decide)
        · refine .inr ⟨⟨?_, fun c hc => hd.2 c (List.mem_of_mem_take hc)⟩, ?_⟩
          · intro hc
            have := congrArg List.length hc
            rw [List.length_take] at this
            simp at this
            omega
          · rw [List.head?_take, if_neg (by omega)]
            exact h0.2
      · intro hc
        have := congrArg List.length hc
        rw [List.length_drop] at this
        simp at this
        omega
      · exact fun c hc => hd.2 c (List.mem_of_mem_drop hc)
    · refine ⟨b!"0", b!"." ++ (List.replicate ((-e).toNat - (printNat m).length) 48 ++ printNat m), [], ?_, .inl rfl, .inr ⟨_, ⟨?_, ?_⟩, rfl⟩, .inl rfl⟩
      · simp
      · simp [hd.1]
      · intro c hc
        rcases List.mem_append.1 hc with h | h
        · exact zeros_digits _ c h
        · exact hd.2 c h

theorem fmtE_unsigned (m : Nat) (e : Int) : IsUnsigned (fmtE m e) := by
  have hd := printNat_digits m
  have hi := printNat_int m
  unfold fmtE
  simp only
  generalize printNat m = ds at hd hi
  match ds, hd, hi with
  | [], hd, _ => exact absurd rfl hd.1
  | c :: ds, hd, hi =>
    refine ⟨[c], if (c :: ds).length = 1 then [] else b!"." ++ ds,
      b!"e" ++ (if e + ((c :: ds).length : Int) - 1 < 0 then b!"-" else b!"+") ++ printNat (e + ((c :: ds).length : Int) - 1).natAbs, ?_, ?_, ?_, ?_⟩
    · simp only [List.take_succ_cons, List.take_zero, List.drop_succ_cons, List.drop_zero, List.append_assoc]
    · by_cases hc : c = 48
      · left; rw [hc]
      · right
        refine ⟨⟨by simp, ?_⟩, by simpa using hc⟩
        intro x hx
        rw [List.mem_singleton.1 hx]
        exact hd.2 c (by simp)
    · split
      · exact .inl rfl
      · rename_i hl
        refine .inr ⟨ds, ⟨?_, fun x hx => hd.2 x (List.mem_cons_of_mem _ hx)⟩, rfl⟩
        rintro rfl
        exact hl rfl
    · refine .inr ⟨b!"e", _, _, .inl rfl, ?_, printNat_digits _, rfl⟩
      split
      · exact .inr (.inr rfl)
      · exact .inr (.inl rfl)

theorem floatText_number (neg sci : Bool) (m : Nat) (e : Int) : IsNumber (floatText neg sci m e) := by
  unfold floatText
  simp only
  refine isUnsigned_number ?_ _
  cases sci
  · exact fmtF_unsigned _ _
  · exact fmtE_unsigned _ _

theorem shortest_spec {x : F64} (h : x.finite = true) (n count : Nat) (sci : Bool) : ∀ f d,
    IsNumber (shortest x n count sci f d) ∧ parseFloat (shortest x n count sci f d) = some x
  | 0, _ => ⟨exact_laws.number x h, exact_laws.parse_fmt x h⟩
  | f + 1, d => by
    unfold shortest
    simp only
    generalize (if roundHalfEven n (10 ^ (count - d)) = n / 10 ^ (count - d) then n / 10 ^ (count - d) + 1 else n / 10 ^ (count - d)) = far
    split
    · rename_i hp
      exact ⟨floatText_number _ _ _ _, hp⟩
    · split
      · rename_i hp
        exact ⟨floatText_number _ _ _ _, hp⟩
      · exact shortest_spec h n count sci f (d + 1)

theorem mag_zero {x : F64} (h : x.mag = 0) : x = if x.neg then ⟨0x8000000000000000⟩ else ⟨0⟩ := by
  have hx := make_bits (x := x) (by unfold F64.finite; rw [h]; decide)
  rw [h] at hx
  rw [← hx]
  cases x.neg <;> decide +kernel

/-- The numbers that Go writes are JSON numbers and read back. -/
theorem go_laws : FloatLaws goFloatIO where
  number x h := by
    show IsNumber (goFmt x)
    unfold goFmt
    split
    · have : IsUnsigned b!"0" := ⟨b!"0", [], [], rfl, .inl rfl, .inl rfl, .inl rfl⟩
      have := isUnsigned_number this x.neg
      cases hn : x.neg <;> rw [hn] at this <;> exact this
    · exact (shortest_spec h _ _ _ _ _).1
  parse_fmt x h := by
    show parseFloat (goFmt x) = some x
    unfold goFmt
    split
    · rename_i hm
      have := mag_zero hm
      cases hn : x.neg with
      | true => rw [hn] at this; rw [this]; decide +kernel
      | false => rw [hn] at this; rw [this]; decide +kernel
    · exact (shortest_spec h _ _ _ _ _).2

theorem goFmt_one : goFloatIO.fmt Spec.one = b!"1" := by decide +kernel
theorem goFmt_zero : goFloatIO.fmt Spec.zero = b!"0" := by decide +kernel

end Gltf
