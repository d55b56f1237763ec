import Verif.Proof.Frobenius
import Verif.Proof.IsFp

/-!
# When `fp6::frobeniusMap` and `fp12::frobeniusMap` are right for powers `≡ 3 (mod 6)`
-/

namespace Bls

variable {K : Type} [Field K] [FpOps K] [LawfulFp K]

theorem Fp6.frobeniusMap_iff (x : Fp6 K) (k : ℕ) (h3 : k % 6 = 3) :
    x.frobeniusMap k = x ^ p ^ k ↔ x.c0.c0 = -x.c1.c1 ∧ x.c1.c0 = x.c1.c1 ∧ x.c2.c1 = 0 := by
  have hodd : k % 2 = 1 := by omega
  have h2 : (2 : K) ≠ 0 := by
    haveI : IsFp K := inferInstance
    exact IsFp.two_ne_zero
  rw [← Fp6.frobeniusMapAssign_eq]
  unfold frobeniusMap frobeniusMapAssign
  simp only [h3, Fp2.frobeniusMap, hodd, if_true]
  rw [Fp6.ext_iff, Fp2.ext_iff, Fp2.ext_iff, Fp2.ext_iff]
  simp only [ops_eq, Fp2.neg_c0, Fp2.neg_c1, neg_neg, and_true, true_and]
  constructor
  · rintro ⟨h, ha, hb⟩
    exact ⟨h.symm, ha, (mul_eq_zero.1 (by linear_combination -hb : (2 : K) * x.c2.c1 = 0)).resolve_left h2⟩
  · rintro ⟨h, ha, hb⟩
    exact ⟨h.symm, ha, by rw [hb, neg_zero]⟩

theorem Fp12.frobeniusMap_iff (x : Fp12 K) (k : ℕ) (h : k < 12) (h3 : k % 6 = 3) :
    x.frobeniusMap k = some (x ^ p ^ k) ↔
      (x.c0.c0.c0 = -x.c0.c1.c1 ∧ x.c0.c1.c0 = x.c0.c1.c1 ∧ x.c0.c2.c1 = 0) ∧
      (x.c1.c0.c0 = -x.c1.c1.c1 ∧ x.c1.c1.c0 = x.c1.c1.c1 ∧ x.c1.c2.c1 = 0) := by
  have ht := Fp12.frobenius_tail ⟨x.c0.frobeniusMap k, x.c1.frobeniusMap k⟩ k h
  have hc : (Fp6.ofFp2 (N2.cast K (C k)) : Fp6 K) ≠ 0 := by
    intro h0
    have h1 := Fp12.pow_p_pow (⟨0, 1⟩ : Fp12 K) k
    rw [h0, mul_zero, zero_pow (pow_ne_zero _ (by decide +kernel))] at h1
    have h2 : (⟨0, 1⟩ : Fp12 K) = 0 := pow_eq_zero_iff (pow_ne_zero _ (by decide +kernel)) |>.1 h1
    exact one_ne_zero (congrArg Fp12.c1 h2)
  have ht' : x.frobeniusMap k = some ⟨x.c0.frobeniusMap k, x.c1.frobeniusMap k * Fp6.ofFp2 (N2.cast K (C k))⟩ := ht
  rw [ht', Fp12.pow_p_pow, Option.some_inj, Fp12.ext_iff, ← Fp6.frobeniusMap_iff _ k h3,
    ← Fp6.frobeniusMap_iff _ k h3]
  exact and_congr Iff.rfl (mul_left_inj' hc)

end Bls
