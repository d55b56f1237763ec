import Verif.Model.Portable
import Verif.Proof.Limbs
import Mathlib.Tactic.LinearCombination

/-! Correctness of the portable backend where it is correct. -/

namespace Bls

set_option exponentiation.threshold 1000

/-- No limb is all ones (the limbs on which `Add64`/`Sub64` lose a carry). -/
def Fp.NoFull (y : Fp) : Prop :=
  y.d1.toNat ≠ 2 ^ 64 - 1 ∧ y.d2.toNat ≠ 2 ^ 64 - 1 ∧ y.d3.toNat ≠ 2 ^ 64 - 1 ∧
    y.d4.toNat ≠ 2 ^ 64 - 1 ∧ y.d5.toNat ≠ 2 ^ 64 - 1

theorem MODULUS_noFull : MODULUS.NoFull := by
  unfold Fp.NoFull; decide +kernel

/-- The arithmetic end of Montgomery reduction. -/
theorem mont_final {t xy M : Nat} (h : 2 ^ 384 * t = xy + M * p) (hM : M < 2 ^ 384)
    (hxy : xy < 2 ^ 384 * p) : t < 2 * p := by
  have h1 : M * p ≤ (2 ^ 384 - 1) * p := Nat.mul_le_mul_right _ (by omega)
  have h2 : 2 ^ 384 * t < 2 ^ 384 * (2 * p) := by
    unfold p at *
    omega
  exact Nat.lt_of_mul_lt_mul_left h2

theorem mont_mod {t xy M : Nat} (h : 2 ^ 384 * t = xy + M * p) : 2 ^ 384 * t % p = xy % p := by
  rw [h, Nat.add_mul_mod_self_right]

/-- Montgomery step: the word `m` chosen by the code clears the low word. -/
theorem inp_low (a : UInt64) : (a.toNat + (a * INP).toNat * MODULUS.d0.toNat) % 2 ^ 64 = 0 := by
  rw [UInt64.toNat_mul]
  have h1 : INP.toNat = 9940570264628428797 := by decide +kernel
  have h2 : MODULUS.d0.toNat = 13402431016077863595 := by decide +kernel
  rw [h1, h2, two64]
  omega

namespace Portable

theorem addChain_spec (x y : Fp) (hy : y.NoFull) :
    ∃ k, (addChain x y).val + 2 ^ 384 * k = x.val + y.val ∧ k ≤ 1 := by
  obtain ⟨h1, h2, h3, h4, h5⟩ := hy
  have e0 := add64_spec x.d0 y.d0 0 (by simp) (Or.inr (by simp))
  have e1 := add64_spec x.d1 y.d1 _ e0.2 (Or.inl h1)
  have e2 := add64_spec x.d2 y.d2 _ e1.2 (Or.inl h2)
  have e3 := add64_spec x.d3 y.d3 _ e2.2 (Or.inl h3)
  have e4 := add64_spec x.d4 y.d4 _ e3.2 (Or.inl h4)
  have e5 := add64_spec x.d5 y.d5 _ e4.2 (Or.inl h5)
  refine ⟨_, ?_, e5.2⟩
  simp only [addChain, Fp.val]
  simp only [UInt64.toNat_zero, add_zero] at e0
  omega

theorem subChain_spec (x y : Fp) (hy : y.NoFull) :
    (subChain x y).1.val + y.val = x.val + 2 ^ 384 * (subChain x y).2.toNat ∧
      (subChain x y).2.toNat ≤ 1 := by
  obtain ⟨h1, h2, h3, h4, h5⟩ := hy
  have e0 := sub64_spec x.d0 y.d0 0 (by simp) (Or.inr (by simp))
  have e1 := sub64_spec x.d1 y.d1 _ e0.2 (Or.inl h1)
  have e2 := sub64_spec x.d2 y.d2 _ e1.2 (Or.inl h2)
  have e3 := sub64_spec x.d3 y.d3 _ e2.2 (Or.inl h3)
  have e4 := sub64_spec x.d4 y.d4 _ e3.2 (Or.inl h4)
  have e5 := sub64_spec x.d5 y.d5 _ e4.2 (Or.inl h5)
  refine ⟨?_, e5.2⟩
  simp only [subChain, Fp.val]
  simp only [UInt64.toNat_zero, add_zero] at e0
  omega

theorem condSub_val (z : Fp) : (condSub z).val = if z.val < p then z.val else z.val - p := by
  unfold condSub
  by_cases h : z.val < p
  · rw [if_pos h, (ltModulus_iff z).mpr h]; simp
  · have h' : ltModulus z = false := by
      rw [← Bool.not_eq_true, ltModulus_iff]; exact h
    rw [if_neg h, h']
    simp only [Bool.not_false, if_true]
    have hs := subChain_spec z MODULUS MODULUS_noFull
    rw [MODULUS_val] at hs
    have := Fp.val_lt (subChain z MODULUS).1
    have := Fp.val_lt z
    omega

theorem mulRound0_spec (v : UInt64) (y : Fp) :
    ∃ m k, m < 2 ^ 64 ∧ 2 ^ 64 * ((mulRound0 v y).val + 2 ^ 384 * k) =
      v.toNat * y.val + m * p := by
  simp only [mulRound0]
  have A0 := mul64_spec v y.d0
  generalize mul64 v y.d0 = a0 at *
  have hm := inp_low a0.2
  have hm' := u64_lt (a0.2 * INP)
  generalize a0.2 * INP = m at *
  obtain ⟨lo, hlo, C⟩ := madd0_spec m MODULUS.d0 a0.2
  generalize madd0 m MODULUS.d0 a0.2 = c2 at *
  have A1 := madd1_spec v y.d1 a0.1
  generalize madd1 v y.d1 a0.1 = a1 at *
  have B1 := madd2_spec m MODULUS.d1 c2 a1.2
  generalize madd2 m MODULUS.d1 c2 a1.2 = b1 at *
  have A2 := madd1_spec v y.d2 a1.1
  generalize madd1 v y.d2 a1.1 = a2 at *
  have B2 := madd2_spec m MODULUS.d2 b1.1 a2.2
  generalize madd2 m MODULUS.d2 b1.1 a2.2 = b2 at *
  have A3 := madd1_spec v y.d3 a2.1
  generalize madd1 v y.d3 a2.1 = a3 at *
  have B3 := madd2_spec m MODULUS.d3 b2.1 a3.2
  generalize madd2 m MODULUS.d3 b2.1 a3.2 = b3 at *
  have A4 := madd1_spec v y.d4 a3.1
  generalize madd1 v y.d4 a3.1 = a4 at *
  have B4 := madd2_spec m MODULUS.d4 b3.1 a4.2
  generalize madd2 m MODULUS.d4 b3.1 a4.2 = b4 at *
  have A5 := madd1_spec v y.d5 a4.1
  generalize madd1 v y.d5 a4.1 = a5 at *
  obtain ⟨k, B5⟩ := madd3_spec m MODULUS.d5 a5.2 b4.1 a5.1
  generalize madd3 m MODULUS.d5 a5.2 b4.1 a5.1 = b5 at *
  have hl : lo = 0 := by
    generalize m.toNat * MODULUS.d0.toNat = mm at *
    omega
  subst hl
  refine ⟨m.toNat, k, hm', ?_⟩
  rw [← MODULUS_val]
  simp only [Fp.val]
  linear_combination A0 + C + 2 ^ 64 * (A1 + B1) + 2 ^ 128 * (A2 + B2) + 2 ^ 192 * (A3 + B3) +
    2 ^ 256 * (A4 + B4) + 2 ^ 320 * (A5 + B5)

theorem mulRound_spec (v : UInt64) (y t : Fp) :
    ∃ m k, m < 2 ^ 64 ∧ 2 ^ 64 * ((mulRound v y t).val + 2 ^ 384 * k) =
      t.val + v.toNat * y.val + m * p := by
  simp only [mulRound]
  have A0 := madd1_spec v y.d0 t.d0
  generalize madd1 v y.d0 t.d0 = a0 at *
  have hm := inp_low a0.2
  have hm' := u64_lt (a0.2 * INP)
  generalize a0.2 * INP = m at *
  obtain ⟨lo, hlo, C⟩ := madd0_spec m MODULUS.d0 a0.2
  generalize madd0 m MODULUS.d0 a0.2 = c2 at *
  have A1 := madd2_spec v y.d1 a0.1 t.d1
  generalize madd2 v y.d1 a0.1 t.d1 = a1 at *
  have B1 := madd2_spec m MODULUS.d1 c2 a1.2
  generalize madd2 m MODULUS.d1 c2 a1.2 = b1 at *
  have A2 := madd2_spec v y.d2 a1.1 t.d2
  generalize madd2 v y.d2 a1.1 t.d2 = a2 at *
  have B2 := madd2_spec m MODULUS.d2 b1.1 a2.2
  generalize madd2 m MODULUS.d2 b1.1 a2.2 = b2 at *
  have A3 := madd2_spec v y.d3 a2.1 t.d3
  generalize madd2 v y.d3 a2.1 t.d3 = a3 at *
  have B3 := madd2_spec m MODULUS.d3 b2.1 a3.2
  generalize madd2 m MODULUS.d3 b2.1 a3.2 = b3 at *
  have A4 := madd2_spec v y.d4 a3.1 t.d4
  generalize madd2 v y.d4 a3.1 t.d4 = a4 at *
  have B4 := madd2_spec m MODULUS.d4 b3.1 a4.2
  generalize madd2 m MODULUS.d4 b3.1 a4.2 = b4 at *
  have A5 := madd2_spec v y.d5 a4.1 t.d5
  generalize madd2 v y.d5 a4.1 t.d5 = a5 at *
  obtain ⟨k, B5⟩ := madd3_spec m MODULUS.d5 a5.2 b4.1 a5.1
  generalize madd3 m MODULUS.d5 a5.2 b4.1 a5.1 = b5 at *
  have hl : lo = 0 := by
    generalize m.toNat * MODULUS.d0.toNat = mm at *
    omega
  subst hl
  refine ⟨m.toNat, k, hm', ?_⟩
  rw [← MODULUS_val]
  simp only [Fp.val]
  linear_combination A0 + C + 2 ^ 64 * (A1 + B1) + 2 ^ 128 * (A2 + B2) + 2 ^ 192 * (A3 + B3) +
    2 ^ 256 * (A4 + B4) + 2 ^ 320 * (A5 + B5)

/-- One round, given that the accumulator stays in six words. -/
theorem mulRound_exact (v : UInt64) (y t : Fp) (hy : y.val + p < 2 ^ 384) (ht : t.val ≤ y.val + p) :
    ∃ m, m < 2 ^ 64 ∧ 2 ^ 64 * (mulRound v y t).val = t.val + v.toNat * y.val + m * p ∧
      (mulRound v y t).val ≤ y.val + p := by
  obtain ⟨m, k, hm, h⟩ := mulRound_spec v y t
  have hv := u64_lt v
  have h1 : v.toNat * y.val ≤ (2 ^ 64 - 1) * y.val := Nat.mul_le_mul_right _ (by omega)
  have h2 : m * p ≤ (2 ^ 64 - 1) * p := Nat.mul_le_mul_right _ (by omega)
  have hk : k = 0 := by
    rcases Nat.eq_zero_or_pos k with h0 | h0
    · exact h0
    · exfalso; generalize v.toNat * y.val = a at *; generalize m * p = b at *
      unfold p at *; omega
  subst hk
  refine ⟨m, hm, by simpa using h, ?_⟩
  generalize v.toNat * y.val = a at *; generalize m * p = b at *
  unfold p at *; omega

theorem mulRound0_exact (v : UInt64) (y : Fp) (hy : y.val + p < 2 ^ 384) :
    ∃ m, m < 2 ^ 64 ∧ 2 ^ 64 * (mulRound0 v y).val = v.toNat * y.val + m * p ∧
      (mulRound0 v y).val ≤ y.val + p := by
  obtain ⟨m, k, hm, h⟩ := mulRound0_spec v y
  have hv := u64_lt v
  have h1 : v.toNat * y.val ≤ (2 ^ 64 - 1) * y.val := Nat.mul_le_mul_right _ (by omega)
  have h2 : m * p ≤ (2 ^ 64 - 1) * p := Nat.mul_le_mul_right _ (by omega)
  have hk : k = 0 := by
    rcases Nat.eq_zero_or_pos k with h0 | h0
    · exact h0
    · exfalso; generalize v.toNat * y.val = a at *; generalize m * p = b at *
      unfold p at *; omega
  subst hk
  refine ⟨m, hm, by simpa using h, ?_⟩
  generalize v.toNat * y.val = a at *; generalize m * p = b at *
  unfold p at *; omega

/-- The portable `_multiply` is a correct Montgomery multiplication. -/
theorem multiply_spec (x y : Fp) (hy : y.val + p < 2 ^ 384) (hxy : x.val * y.val < 2 ^ 384 * p) :
    (multiply x y).val < p ∧ 2 ^ 384 * (multiply x y).val % p = x.val * y.val % p := by
  obtain ⟨m0, hm0, e0, b0⟩ := mulRound0_exact x.d0 y hy
  obtain ⟨m1, hm1, e1, b1⟩ := mulRound_exact x.d1 y _ hy b0
  obtain ⟨m2, hm2, e2, b2⟩ := mulRound_exact x.d2 y _ hy b1
  obtain ⟨m3, hm3, e3, b3⟩ := mulRound_exact x.d3 y _ hy b2
  obtain ⟨m4, hm4, e4, b4⟩ := mulRound_exact x.d4 y _ hy b3
  obtain ⟨m5, hm5, e5, b5⟩ := mulRound_exact x.d5 y _ hy b4
  simp only [multiply]
  generalize mulRound x.d5 y _ = t at *
  have key : 2 ^ 384 * t.val = x.val * y.val +
      (m0 + 2 ^ 64 * m1 + 2 ^ 128 * m2 + 2 ^ 192 * m3 + 2 ^ 256 * m4 + 2 ^ 320 * m5) * p := by
    have hx : x.val = x.d0.toNat + 2 ^ 64 * (x.d1.toNat + 2 ^ 64 * (x.d2.toNat + 2 ^ 64 *
      (x.d3.toNat + 2 ^ 64 * (x.d4.toNat + 2 ^ 64 * x.d5.toNat)))) := rfl
    rw [hx]
    linear_combination e0 + 2 ^ 64 * e1 + 2 ^ 128 * e2 + 2 ^ 192 * e3 + 2 ^ 256 * e4 + 2 ^ 320 * e5
  have hM : m0 + 2 ^ 64 * m1 + 2 ^ 128 * m2 + 2 ^ 192 * m3 + 2 ^ 256 * m4 + 2 ^ 320 * m5
      < 2 ^ 384 := by omega
  have hlt := mont_final key hM hxy
  have hmod := mont_mod key
  rw [condSub_val]
  split
  · exact ⟨by assumption, hmod⟩
  · refine ⟨by omega, ?_⟩
    rw [← hmod]
    obtain ⟨s, hs⟩ : ∃ s, t.val = s + p := ⟨t.val - p, by omega⟩
    rw [hs, Nat.add_sub_cancel, Nat.mul_add, Nat.add_mul_mod_self_right]

end Portable
end Bls
