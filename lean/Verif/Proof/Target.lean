import Mathlib.RingTheory.RootsOfUnity.PrimitiveRoots
import Verif.Proof.PairIff

/-!
# The values of the pairing
-/

namespace Bls.Pairing
open Bls
attribute [local irreducible] p q

variable {K : Type} [Field K] [FpOps K] [LawfulFp K] [DecidableEq K]

theorem eps_primitive {P : E1 K} {Q : E2 K} (hP : q • P = 0) (hQ : q • Q = 0) (h : P ≠ 0) (h' : Q ≠ 0) :
    IsPrimitiveRoot (eps P Q) q := by
  have := Fact.mk q_prime
  have ho : orderOf (eps P Q) = q := orderOf_eq_prime (eps_order _ _ hP hQ) fun e => by
    rcases (eps_eq_one_iff hP hQ).1 e with e | e
    · exact h e
    · exact h' e
  have := IsPrimitiveRoot.orderOf (eps P Q)
  rwa [ho] at this

theorem eps_onto_left {Q : E2 K} (hQ : q • Q = 0) (h' : Q ≠ 0) {v : Fp12 K} (hv : v ^ q = 1) :
    ∃ P : E1 K, q • P = 0 ∧ eps P Q = v := by
  have := Fact.mk q_prime
  have : NeZero q := ⟨q_prime.ne_zero⟩
  obtain ⟨i, _, hi⟩ := (eps_primitive (q_smul_gen1 K) hQ (gen1_ne_zero K) h').eq_pow_of_pow_eq_one hv
  exact ⟨i • gen1 K, smul_smul_zero (q_smul_gen1 K) _, (eps_smul_left (q_smul_gen1 K) hQ i).trans hi⟩

theorem eps_onto_right {P : E1 K} (hP : q • P = 0) (h : P ≠ 0) {v : Fp12 K} (hv : v ^ q = 1) :
    ∃ Q : E2 K, q • Q = 0 ∧ eps P Q = v := by
  have : NeZero q := ⟨q_prime.ne_zero⟩
  obtain ⟨i, _, hi⟩ := (eps_primitive hP (q_smul_gen2 K) h (gen2_ne_zero K)).eq_pow_of_pow_eq_one hv
  exact ⟨i • gen2 K, smul_smul_zero (q_smul_gen2 K) _, (eps_smul_right hP (q_smul_gen2 K) i).trans hi⟩

theorem eps_inj_left {P R : E1 K} {Q : E2 K} (hP : q • P = 0) (hR : q • R = 0) (hQ : q • Q = 0) (hQ0 : Q ≠ 0)
    (h : eps P Q = eps R Q) : P = R := by
  have hn : q • (-R) = 0 := by rw [neg_nsmul, hR, neg_zero]
  have h0 : eps (R + -R) Q = 1 := by rw [add_neg_cancel, eps_zero_left]
  have h1 : eps (P + -R) Q = 1 := by
    rw [eps_add_left hP hn hQ, h, ← eps_add_left hR hn hQ, h0]
  rcases (eps_eq_one_iff (order_add hP hn) hQ).1 h1 with h2 | h2
  · rwa [← sub_eq_add_neg, sub_eq_zero] at h2
  · exact absurd h2 hQ0

theorem card_roots : Nat.card {v : Fp12 K // v ^ q = 1} = q := by
  have : NeZero q := ⟨q_prime.ne_zero⟩
  have hp := eps_primitive (q_smul_gen1 K) (q_smul_gen2 K) (gen1_ne_zero K) (gen2_ne_zero K)
  have e : Function.Bijective fun i : Fin q => (⟨eps (gen1 K) (gen2 K) ^ (i : ℕ), by
      rw [← pow_mul, mul_comm, pow_mul, hp.pow_eq_one, one_pow]⟩ : {v : Fp12 K // v ^ q = 1}) := by
    constructor
    · intro i j h
      exact Fin.ext (hp.pow_inj i.2 j.2 (congrArg Subtype.val h))
    · rintro ⟨v, hv⟩
      obtain ⟨i, hi, h⟩ := hp.eq_pow_of_pow_eq_one hv
      exact ⟨⟨i, hi⟩, Subtype.ext h⟩
  rw [← Nat.card_congr (Equiv.ofBijective _ e), Nat.card_fin]

/-- `finalExp` has an inverse modulo `q`: `q²` does not divide `p¹² - 1`. -/
theorem finalExp_inv : ∃ k w : ℕ, finalExp * k = 1 + q * w := by
  have hc : Nat.Coprime finalExp q := by
    rw [Nat.coprime_comm, q_prime.coprime_iff_not_dvd]
    unfold q
    decide +kernel
  obtain ⟨i, _, hi⟩ := Nat.exists_mul_mod_eq_one_of_coprime hc q_prime.one_lt
  exact ⟨i, finalExp * i / q, by rw [← hi, Nat.mod_add_div]⟩

theorem final_onto {v : Fp12 K} (hv : v ^ q = 1) : ∃ f ≠ 0, finalExponentiation f = some v := by
  obtain ⟨k, w, h⟩ := finalExp_inv
  have h0 : v ≠ 0 := by
    rintro rfl
    rw [zero_pow q_prime.ne_zero] at hv
    exact zero_ne_one hv
  refine ⟨v ^ k, pow_ne_zero _ h0, ?_⟩
  rw [finalExponentiation_eq, ← pow_mul, mul_comm, h, pow_add, pow_mul, hv, one_pow, pow_one, mul_one]

theorem final_kernel (f : Fp12 K) : finalExponentiation f = some 1 ↔ ∃ g ≠ 0, f = g ^ q := by
  rw [finalExponentiation_eq, Option.some_inj]
  constructor
  · intro hf
    obtain ⟨k, w, h⟩ := finalExp_inv
    have h0 : f ≠ 0 := by
      rintro rfl
      rw [zero_pow (by decide +kernel)] at hf
      exact zero_ne_one hf
    have h1 : f * (f ^ w) ^ q = 1 := by
      rw [← pow_mul, mul_comm w, ← pow_succ', Nat.add_comm, ← h, pow_mul, hf, one_pow]
    refine ⟨(f ^ w)⁻¹, inv_ne_zero (pow_ne_zero _ h0), ?_⟩
    rw [inv_pow]
    exact eq_inv_of_mul_eq_one_left h1
  · rintro ⟨g, hg, rfl⟩
    rw [← pow_mul, mul_comm, pow_mul]
    exact finalExp_order hg

end Bls.Pairing
