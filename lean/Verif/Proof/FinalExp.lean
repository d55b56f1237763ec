import Verif.Model.Pairing
import Verif.Proof.Cyclotomic
import Verif.Proof.Subgroup1

/-! The final exponentiation is a power. -/

namespace Bls

variable {K : Type} [Field K] [FpOps K] [LawfulFp K]

namespace Fp12

theorem pow_p12 (x : Fp12 K) : x ^ p ^ 12 = x := by
  have hA : A 12 = A 0 := rfl
  have hB : B 12 = B 0 := rfl
  have hC : C 12 = C 0 := rfl
  have h1 : ∀ y : Fp6 K, y ^ p ^ 12 = y := fun y => by
    rw [Fp6.pow_p_pow, hA, hB, A_zero, B_zero, mul_one, mul_one]
    simp [Fp2.frob]
  rw [pow_p_pow, h1, h1, hC, C_zero]
  ext1
  · rfl
  · show x.c1 * Fp6.ofFp2 1 = x.c1
    rw [show (Fp6.ofFp2 1 : Fp6 K) = 1 from rfl, mul_one]

theorem conjugate_eq (x : Fp12 K) : x.conjugate = x ^ p ^ 6 := by
  have hA : A 6 = A 0 := rfl
  have hB : B 6 = B 0 := rfl
  have h1 : ∀ y : Fp6 K, y ^ p ^ 6 = y := fun y => by
    rw [Fp6.pow_p_pow, hA, hB, A_zero, B_zero, mul_one, mul_one]
    simp [Fp2.frob]
  rw [pow_p_pow, h1, h1, C6]
  ext1
  · rfl
  · rw [conjugate_c1]
    show -x.c1 = x.c1 * Fp6.ofFp2 (-1)
    rw [show (Fp6.ofFp2 (-1) : Fp6 K) = -1 from by ext1 <;> simp [Fp6.ofFp2], mul_neg, mul_one]

theorem Cyc.inv {x : Fp12 K} (hx : x.Cyc) : (x⁻¹).Cyc := by
  unfold Cyc at *
  rw [inv_pow, inv_pow, ← hx, _root_.mul_inv]

theorem Cyc.zpow {x : Fp12 K} (hx : x.Cyc) (k : ℤ) : (x ^ k).Cyc := by
  cases k with
  | ofNat n => rw [Int.ofNat_eq_natCast, zpow_natCast]; exact hx.pow n
  | negSucc n => rw [zpow_negSucc]; exact (hx.pow _).inv

theorem conj_aux {F : Type*} [Field F] {x : F} (h0 : x ≠ 0) {n : ℕ} (hx : x ^ n ^ 4 * x = x ^ n ^ 2) :
    x ^ n ^ 6 = x⁻¹ := by
  have h1 : (x ^ n ^ 4 * x) ^ n ^ 2 = (x ^ n ^ 2) ^ n ^ 2 := congrArg (· ^ n ^ 2) hx
  rw [mul_pow, ← pow_mul, ← pow_mul, ← pow_add n 4 2, ← pow_add n 2 2, ← hx] at h1
  have h6 : x ^ n ^ 6 * x * x ^ n ^ 4 = 1 * x ^ n ^ 4 := by
    rw [one_mul]
    linear_combination h1
  exact eq_inv_of_mul_eq_one_left (mul_right_cancel₀ (pow_ne_zero _ h0) h6)

attribute [local irreducible] p

theorem Cyc.conj {x : Fp12 K} (hx : x.Cyc) (h0 : x ≠ 0) : x.conjugate = x⁻¹ := by
  rw [conjugate_eq]
  exact conj_aux h0 hx

section zpow

variable {m : Fp12 K} (hm : m.Cyc) (h0 : m ≠ 0)
include hm h0

theorem conj_zpow (k : ℤ) : (m ^ k).conjugate = m ^ (-k) := by
  rw [(hm.zpow k).conj (zpow_ne_zero _ h0), zpow_neg]

theorem cycSqr_zpow (k : ℤ) : (m ^ k).cyclotomicSquare = m ^ (k + k) := by
  rw [cyclotomicSquare_eq (hm.zpow k), ← zpow_add₀ h0]

theorem cycExp_zpow (k : ℤ) : (m ^ k).cyclotomicExp G2.cofactorEFF = m ^ (k * zabs) := by
  rw [cyclotomicExp_eq (hm.zpow k), zpow_mul, ← zpow_natCast]
  rfl

omit hm in
theorem mul_zpow' (k l : ℤ) : (m ^ k).mul (m ^ l) = m ^ (k + l) := by
  rw [mul_eq, zpow_add₀ h0]

omit hm h0 in
theorem frob_zpow (k : ℤ) (j : ℕ) (hj : j < 12) : (m ^ k).frobeniusMapAssign j = some (m ^ (k * (p : ℤ) ^ j)) := by
  rw [frobeniusMapAssign_eq _ _ hj, zpow_mul, ← Nat.cast_pow, zpow_natCast]

end zpow

end Fp12

namespace Pairing

attribute [local irreducible] p

/-- The exponent of the hard part. -/
def hardExp : ℕ := 3 * ((p ^ 4 - p ^ 2 + 1) / q)

theorem hardPart_zpow {m : Fp12 K} (hm : m.Cyc) (h0 : m ≠ 0) :
    ∀ k : ℤ, k = 1 → hardPart (m ^ k) = some (m ^ hardExp) := by
  intro k hk
  unfold hardPart
  simp only [Fp12.conj_zpow hm h0, Fp12.cycSqr_zpow hm h0, Fp12.cycExp_zpow hm h0, Fp12.mul_zpow' h0,
    Fp12.frob_zpow _ _ (show (3 : ℕ) < 12 by norm_num), Fp12.frob_zpow _ _ (show (1 : ℕ) < 12 by norm_num),
    Fp12.frob_zpow _ _ (show (2 : ℕ) < 12 by norm_num), Option.bind_some, Option.map_some]
  rw [← zpow_natCast]
  congr 2
  rw [hk]
  decide +kernel

theorem hardPart_eq {m : Fp12 K} (hm : m.Cyc) (h0 : m ≠ 0) : hardPart m = some (m ^ hardExp) := by
  have := hardPart_zpow hm h0 1 rfl
  rwa [zpow_one] at this

theorem easyPart_eq (f : Fp12 K) : easyPart f = some ((f ^ p ^ 6 * f⁻¹) ^ p ^ 2 * (f ^ p ^ 6 * f⁻¹)) := by
  unfold easyPart
  rw [Fp12.frobeniusMap_eq f 6 (by norm_num) (by norm_num), Option.bind_some]
  simp only [Fp12.mul_eq, Fp12.inv_eq]
  rw [Fp12.frobeniusMapAssign_eq _ 2 (by norm_num), Option.map_some]

theorem easy_aux {F : Type*} [Field F] {g : F} {n : ℕ} (hi : g ^ n ^ 6 * g = 1) :
    (g ^ n ^ 2 * g) ^ n ^ 4 * (g ^ n ^ 2 * g) = (g ^ n ^ 2 * g) ^ n ^ 2 := by
  rw [mul_pow, mul_pow, ← pow_mul, ← pow_mul, ← pow_add n 2 4, ← pow_add n 2 2]
  linear_combination g ^ n ^ 4 * g ^ n ^ 2 * hi

theorem unit_aux {F : Type*} [Field F] {f f' : F} (h : f * f' = 1) {n : ℕ} (h12 : f ^ n ^ 12 = f) :
    (f ^ n ^ 6 * f') ^ n ^ 6 * (f ^ n ^ 6 * f') = 1 := by
  rw [mul_pow, ← pow_mul, ← pow_add, h12]
  have h6 : f ^ n ^ 6 * f' ^ n ^ 6 = 1 := by rw [← mul_pow, h, one_pow]
  linear_combination f * f' * h6 + h

theorem easy_cyc {f g : Fp12 K} (h : f ≠ 0) (hg : g = f ^ p ^ 6 * f⁻¹) : (g ^ p ^ 2 * g).Cyc := by
  have hi : g ^ p ^ 6 * g = 1 := by
    have h12 := Fp12.pow_p12 f
    have hh := mul_inv_cancel₀ h
    rw [hg]
    clear hg
    generalize f⁻¹ = f' at *
    generalize p = n at *
    have := unit_aux (F := Fp12 K) (f := f) (f' := f') hh (n := n) h12
    linear_combination this
  exact easy_aux hi

/-- The exponent `3 (p¹² - 1) / q`. -/
def finalExp : ℕ := 3 * ((p ^ 12 - 1) / q)

theorem exp_identity : ((p ^ 6 - 1) * p ^ 2 + (p ^ 6 - 1)) * hardExp = finalExp := by decide +kernel

theorem finalExponentiation_eq (f : Fp12 K) : finalExponentiation f = some (f ^ finalExp) := by
  unfold finalExponentiation
  rw [easyPart_eq, Option.bind_some]
  by_cases h : f = 0
  · subst h
    have e1 : ((0 : Fp12 K) ^ p ^ 6 * 0⁻¹) ^ p ^ 2 * ((0 : Fp12 K) ^ p ^ 6 * 0⁻¹) = 0 := by
      rw [inv_zero, mul_zero, mul_zero]
    rw [e1, zero_pow (by decide +kernel)]
    have hc : (0 : Fp12 K).Cyc := by
      unfold Fp12.Cyc
      rw [mul_zero, zero_pow (by decide +kernel)]
    have e2 : (0 : Fp12 K).conjugate = 0 := by
      rw [Fp12.conjugate_eq, zero_pow (by decide +kernel)]
    have e3 : (0 : Fp12 K).cyclotomicSquare = 0 := by rw [Fp12.cyclotomicSquare_eq hc, mul_zero]
    have e4 : (0 : Fp12 K).cyclotomicExp G2.cofactorEFF = 0 := by
      rw [Fp12.cyclotomicExp_eq hc, zero_pow (by decide +kernel)]
    have e5 : ∀ k, k < 12 → (0 : Fp12 K).frobeniusMapAssign k = some 0 := fun k hk => by
      rw [Fp12.frobeniusMapAssign_eq _ _ hk, zero_pow]
      exact pow_ne_zero _ p_prime.ne_zero
    unfold hardPart
    simp only [e2, e3, e4, Fp12.mul_eq, mul_zero, e5 3 (by norm_num), e5 1 (by norm_num), e5 2 (by norm_num),
      Option.bind_some, Option.map_some]
  · have hg : f ^ p ^ 6 * f⁻¹ ≠ 0 := mul_ne_zero (pow_ne_zero _ h) (inv_ne_zero h)
    rw [hardPart_eq (easy_cyc h rfl) (mul_ne_zero (pow_ne_zero _ hg) hg)]
    have hs : f ^ p ^ 6 * f⁻¹ = f ^ (p ^ 6 - 1) := by
      have h6 : p ^ 6 = (p ^ 6 - 1) + 1 := (Nat.sub_add_cancel (Nat.one_le_pow _ _ p_prime.pos)).symm
      conv_lhs => rw [h6, pow_succ, mul_assoc, mul_inv_cancel₀ h, mul_one]
    rw [hs, ← pow_mul, ← pow_add, ← pow_mul, exp_identity]

theorem pow_full {f : Fp12 K} (h : f ≠ 0) : f ^ (p ^ 12 - 1) = 1 := by
  have h1 : f ^ (p ^ 12 - 1) * f = 1 * f := by
    rw [← pow_succ, Nat.sub_add_cancel (Nat.one_le_pow _ _ p_prime.pos), Fp12.pow_p12, one_mul]
  exact mul_right_cancel₀ h h1

theorem finalExp_order {f : Fp12 K} (h : f ≠ 0) : (f ^ finalExp) ^ q = 1 := by
  rw [← pow_mul, show finalExp * q = (p ^ 12 - 1) * 3 by decide +kernel, pow_mul, pow_full h, one_pow]

theorem isGtValid_iff (x : Fp12 K) : x.isGtValid = true ↔ x ^ q = 1 := by
  unfold Fp12.isGtValid
  rw [Fp12.isOne_iff, Ops.exp_eq]
  rfl

end Pairing

end Bls
