/-
Alpha there and back.
-/
import Verif.Lemmas.ColorRound

namespace Gltf

set_option exponentiation.threshold 3000

theorem decode_dvd {w m f : Nat} (h : 2 ^ (w + f) ≤ decodeMag w m) : 2 ^ f ∣ decodeMag w m := by
  obtain ⟨M, e, h1, h2⟩ := decode_form w m
  rw [h1] at h ⊢
  have h3 : 2 ^ (w + f) < 2 ^ (w + 1 + e) := by
    refine Nat.lt_of_le_of_lt h ?_
    rw [Nat.pow_add 2 (w + 1) e]
    exact Nat.mul_lt_mul_of_pos_right h2 (Nat.two_pow_pos _)
  have h4 : w + f < w + 1 + e := (Nat.pow_lt_pow_iff_right (by decide)).1 h3
  exact Dvd.dvd.mul_left (Nat.pow_dvd_pow 2 (by omega)) M

theorem denU_close_at {K v e : Nat} (hK : 0 < K) (h : v * 2 ^ 149 < K * 2 ^ (23 + e + 1)) :
    2 * (denU K v * K) ≤ 2 * (v * 2 ^ 149) + K * 2 ^ e ∧ 2 * (v * 2 ^ 149) ≤ 2 * (denU K v * K) + K * 2 ^ e := by
  have hp : 0 < 2 ^ 149 := Nat.two_pow_pos _
  have h1 := round_close (w := 23) (n := v * 2 ^ 149 * 2 ^ 149) (d := K * 2 ^ 149) (e := e)
    (Nat.mul_pos hK hp) (by
      have := Nat.mul_lt_mul_of_pos_right h hp
      rwa [Nat.mul_right_comm K] at this)
  unfold denU rnd32
  generalize decodeMag 23 (roundMag 23 (v * 2 ^ 149 * 2 ^ 149) (K * 2 ^ 149)) = r at *
  clear h
  generalize 2 ^ 149 = U at *
  generalize 2 ^ e = S at *
  rw [show 2 * (r * (K * U)) = 2 * (r * K) * U by ac_rfl, show 2 * (v * U * U) = 2 * (v * U) * U by ac_rfl,
    show K * U * S = K * S * U by ac_rfl, ← Nat.add_mul, ← Nat.add_mul] at h1
  exact ⟨Nat.le_of_mul_le_mul_right h1.1 hp, Nat.le_of_mul_le_mul_right h1.2 hp⟩

theorem mul_close_at {a K e : Nat} (h : a * K < 2 ^ (23 + e + 1)) :
    2 * rnd32 (a * (K * 2 ^ 149)) (2 ^ 149) ≤ 2 * (a * K) + 2 ^ e ∧ 2 * (a * K) ≤ 2 * rnd32 (a * (K * 2 ^ 149)) (2 ^ 149) + 2 ^ e := by
  have hp : 0 < 2 ^ 149 := Nat.two_pow_pos _
  have h1 := round_close (w := 23) (n := a * (K * 2 ^ 149)) (d := 2 ^ 149) (e := e) hp (by
      have := Nat.mul_lt_mul_of_pos_right h hp
      rwa [Nat.mul_assoc, Nat.mul_comm (2 ^ (23 + e + 1))] at this)
  unfold rnd32
  generalize decodeMag 23 (roundMag 23 (a * (K * 2 ^ 149)) (2 ^ 149)) = r at *
  clear h
  generalize 2 ^ 149 = U at *
  generalize 2 ^ e = S at *
  rw [show 2 * (r * U) = 2 * r * U by ac_rfl, show 2 * (a * (K * U)) = 2 * (a * K) * U by ac_rfl,
    show U * S = S * U by ac_rfl, ← Nat.add_mul, ← Nat.add_mul] at h1
  exact ⟨Nat.le_of_mul_le_mul_right h1.1 hp, Nat.le_of_mul_le_mul_right h1.2 hp⟩

theorem alpha_core {v Q u A B k X0 X1 t : Nat} (a1 : 2 * A ≤ 2 * (v * Q) + B) (a2 : 2 * (v * Q) ≤ 2 * A + B) (b0 : B < u)
    (q0 : u ≤ Q) (r1 : X0 + Q ≤ v * Q) (r2 : v * Q + Q ≤ X1) (ht : Q = u * t) (a3 : Q * X0 ≤ Q * A → X0 ≤ k)
    (a4 : X0 ≤ k → u ∣ k) (a5 : A < X1 → 2 * k ≤ 2 * A + u ∧ 2 * A ≤ 2 * k + u) : v * Q ≤ k ∧ k < v * Q + Q := by
  have d0 : X0 ≤ k := a3 (Nat.mul_le_mul_left _ (by omega))
  obtain ⟨x, hx⟩ := a4 d0
  obtain ⟨e1, e2⟩ := a5 (by omega)
  refine ⟨?_, by omega⟩
  have f1 : v * Q < k + u := by omega
  rw [hx, ht, show v * (u * t) = u * (v * t) by ac_rfl] at f1
  rw [hx, ht, show v * (u * t) = u * (v * t) by ac_rfl]
  have f3 : v * t < x + 1 := Nat.lt_of_mul_lt_mul_left (a := u) (by rw [Nat.mul_add, Nat.mul_one]; exact f1)
  exact Nat.mul_le_mul_left _ (by omega)

/-- `fl(v / K) * K` is not rounded below `v`. -/
theorem alpha_nat {n K E v : Nat} (hn : n ≤ 16) (hE : E < n) (hK : K + 1 = 2 ^ n) (h1 : 2 ^ E < v) (h2 : v < 2 ^ (E + 1)) (h3 : v < K) :
    v * 2 ^ 149 ≤ rnd32 (denU K v * (K * 2 ^ 149)) (2 ^ 149) ∧
    rnd32 (denU K v * (K * 2 ^ 149)) (2 ^ 149) < v * 2 ^ 149 + 2 ^ 149 := by
  have hK0 : 0 < K := by omega
  have a0 : v * 2 ^ 149 < K * 2 ^ (23 + (126 + E - n) + 1) := by
    have hlt : v * 2 ^ n < K * 2 ^ (E + 1) := by
      have e1 : v * 2 ^ n = K * v + v := by rw [← hK, Nat.mul_add, Nat.mul_one, Nat.mul_comm]
      have e2 : K * (v + 1) ≤ K * 2 ^ (E + 1) := Nat.mul_le_mul_left _ h2
      rw [Nat.mul_add, Nat.mul_one] at e2
      omega
    have e3 : 2 ^ (E + 1) * 2 ^ 149 = 2 ^ (23 + (126 + E - n) + 1) * 2 ^ n := by
      rw [← Nat.pow_add, ← Nat.pow_add]; congr 1; omega
    have h4 := Nat.mul_lt_mul_of_pos_right hlt (Nat.two_pow_pos 149)
    rw [Nat.mul_assoc K, e3, ← Nat.mul_assoc, Nat.mul_right_comm v] at h4
    exact Nat.lt_of_mul_lt_mul_right h4
  obtain ⟨a1, a2⟩ := denU_close_at hK0 a0
  have b0 : K * 2 ^ (126 + E - n) < 2 ^ (126 + E) := by
    have : 2 ^ (126 + E) = 2 ^ n * 2 ^ (126 + E - n) := by rw [← Nat.pow_add]; congr 1; omega
    rw [this]
    exact Nat.mul_lt_mul_of_pos_right (by omega) (Nat.two_pow_pos _)
  have q0 : 2 ^ (126 + E) ≤ 2 ^ 149 := Nat.pow_le_pow_right (by decide) (by omega)
  have q1 : 2 ^ (23 + (126 + E)) = 2 ^ E * 2 ^ 149 := by rw [← Nat.pow_add]; congr 1; omega
  have q2 : 2 ^ (23 + (126 + E) + 1) = 2 ^ (E + 1) * 2 ^ 149 := by rw [← Nat.pow_add]; congr 1; omega
  have r1 : (2 ^ E + 1) * 2 ^ 149 ≤ v * 2 ^ 149 := Nat.mul_le_mul_right _ h1
  have r2 : (v + 1) * 2 ^ 149 ≤ 2 ^ (E + 1) * 2 ^ 149 := Nat.mul_le_mul_right _ h2
  rw [Nat.add_mul, Nat.one_mul, ← q1] at r1
  rw [Nat.add_mul, Nat.one_mul, ← q2] at r2
  obtain ⟨t, ht⟩ : ∃ t, 2 ^ 149 = 2 ^ (126 + E) * t := Nat.pow_dvd_pow 2 (by omega)
  have a3 := pow_le_round (w := 23) (n := denU K v * (K * 2 ^ 149)) (d := 2 ^ 149) (e := 23 + (126 + E)) (Nat.two_pow_pos _)
  have a4 := decode_dvd (w := 23) (m := roundMag 23 (denU K v * (K * 2 ^ 149)) (2 ^ 149)) (f := 126 + E)
  have a5 := mul_close_at (a := denU K v) (K := K) (e := 126 + E)
  refine alpha_core a1 a2 b0 q0 r1 r2 ht (fun h => a3 ?_) a4 a5
  rw [show denU K v * (K * 2 ^ 149) = 2 ^ 149 * (denU K v * K) by ac_rfl]
  exact h

theorem alpha_pow8 : ∀ E, E < 8 → encodeAlpha 255 (decodeAlpha 255 (2 ^ E)) = some (2 ^ E) := by decide +kernel
theorem alpha_pow16 : ∀ E, E < 16 → encodeAlpha 65535 (decodeAlpha 65535 (2 ^ E)) = some (2 ^ E) := by decide +kernel

/-- Alpha comes back as it was. -/
theorem encode_decode_alpha {K v : Nat} (hK : K = 255 ∨ K = 65535) (hv : v ≤ K) : encodeAlpha K (decodeAlpha K v) = some v := by
  by_cases h0 : v = 0
  · subst h0
    rcases hK with rfl | rfl <;> decide +kernel
  by_cases hKv : v = K
  · subst hKv
    rcases hK with rfl | rfl <;> decide +kernel
  obtain ⟨n, hn, hn2⟩ : ∃ n ≤ 16, K + 1 = 2 ^ n := by
    rcases hK with rfl | rfl
    · exact ⟨8, by decide, by decide⟩
    · exact ⟨16, by decide, by decide⟩
  have hl1 := (Nat.le_log2 h0).1 (Nat.le_refl _)
  have hl2 := Nat.lt_log2_self (n := v)
  have hE : v.log2 < n := (Nat.pow_lt_pow_iff_right (a := 2) (by decide)).1 (by omega)
  by_cases hp : v = 2 ^ v.log2
  · rw [hp]
    rcases hK with rfl | rfl
    · have := Nat.pow_right_injective (Nat.le_refl 2) (hn2.symm.trans (show _ = 2 ^ 8 from rfl))
      exact alpha_pow8 _ (by omega)
    · have := Nat.pow_right_injective (Nat.le_refl 2) (hn2.symm.trans (show _ = 2 ^ 16 from rfl))
      exact alpha_pow16 _ (by omega)
  · obtain ⟨r1, r2⟩ := alpha_nat hn hE hn2 (by omega) hl2 (by omega)
    have hK2 : K < 2 ^ 16 := by rcases hK with rfl | rfl <;> decide
    obtain ⟨v1, v2⟩ := denU_val (by omega : 0 < K) hK2 hv
    have hnear := decodeAlpha_near hK2 (by omega) hv
    obtain ⟨b1, b2, b3⟩ := F32.ofNat_val (n := K) (by omega)
    unfold encodeAlpha F32.mul
    change ((decodeAlpha K v).val = _) at v1
    rw [hnear.fin, b2, hnear.neg, b3]
    have m1 : decodeMag 23 (decodeAlpha K v).mag = denU K v := by
      rw [← F32.natAbs_val, v1, Int.natAbs_natCast]
    have m2 : decodeMag 23 (F32.ofNat K).mag = K * 2 ^ 149 := by
      rw [← F32.natAbs_val, b1, Int.natAbs_natCast]
    rw [m1, m2]
    have hlt : rnd32 (denU K v * (K * 2 ^ 149)) (2 ^ 149) < 2 ^ 23 * 2 ^ 254 := by
      refine Nat.lt_of_lt_of_le r2 ?_
      calc v * 2 ^ 149 + 2 ^ 149 = (v + 1) * 2 ^ 149 := by rw [Nat.add_mul, Nat.one_mul]
        _ ≤ 2 ^ 16 * 2 ^ 149 := Nat.mul_le_mul_right _ (by omega)
        _ ≤ _ := by decide
    obtain ⟨w1, w2⟩ := make32_val (neg := false) hlt
    have hd : (signed false (rnd32 (denU K v * (K * 2 ^ 149)) (2 ^ 149))).natAbs / 2 ^ 149 = v := by
      rw [natAbs_signed]
      exact Nat.div_eq_of_lt_le r1 (by rw [Nat.add_mul, Nat.one_mul]; exact r2)
    have hneg : (F32.make false (roundMag 23 (denU K v * (K * 2 ^ 149)) (2 ^ 149))).neg = false :=
      (make32 (by rw [inf32_eq]; exact bits_lt hlt)).2
    rw [if_pos (by decide), bne_self_eq_false]
    unfold F32.truncTo
    rw [w1]
    simp only [hd]
    rw [if_pos ⟨w2, hv, .inl hneg⟩]

end Gltf
