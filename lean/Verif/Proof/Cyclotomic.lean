import Verif.Proof.Frobenius

/-! Granger–Scott squaring on the cyclotomic subgroup. -/

namespace Bls

variable {K : Type} [Field K] [FpOps K] [LawfulFp K]

namespace Fp12

/-- Membership in the subgroup of elements with `x^(p⁴-p²+1) = 1`, written without subtraction. -/
def Cyc (x : Fp12 K) : Prop := x ^ p ^ 4 * x = x ^ p ^ 2

theorem Cyc.one : Cyc (1 : Fp12 K) := by simp [Cyc]

theorem Cyc.mul {x y : Fp12 K} (hx : x.Cyc) (hy : y.Cyc) : (x * y).Cyc := by
  unfold Cyc at *
  rw [mul_pow, mul_pow, ← hx, ← hy]; ring

theorem cyc_iff {x : Fp12 K} (h0 : x ≠ 0) : x.Cyc ↔ x ^ (p ^ 4 - p ^ 2 + 1) = 1 := by
  have h : p ^ 4 + 1 = (p ^ 4 - p ^ 2 + 1) + p ^ 2 := by
    have : p ^ 2 ≤ p ^ 4 := Nat.pow_le_pow_right p_prime.pos (by norm_num)
    generalize p ^ 4 = a at *
    generalize p ^ 2 = b at *
    omega
  rw [Cyc, ← pow_succ, h, pow_add]
  constructor
  · intro e
    exact mul_right_cancel₀ (pow_ne_zero _ h0) (e.trans (one_mul _).symm)
  · intro e
    rw [e, one_mul]

/-- `ζ = ξ^((p²-1)/6)`, a primitive sixth root of unity. -/
theorem zeta_tables : N2.cast K (A 2) = N2.cast K (C 2) - 1 ∧ N2.cast K (B 2) = -N2.cast K (C 2) ∧
    N2.cast K (C 4) = N2.cast K (C 2) - 1 ∧ N2.cast K (A 4) = -N2.cast K (C 2) ∧
    N2.cast K (B 4) = N2.cast K (C 2) - 1 := by
  have h1 : A 2 = (C 2).sub ⟨1, 0⟩ := by decide +kernel
  have h2 : B 2 = (C 2).neg := by decide +kernel
  have h3 : C 4 = (C 2).sub ⟨1, 0⟩ := by decide +kernel
  have h4 : A 4 = (C 2).neg := by decide +kernel
  have h5 : B 4 = (C 2).sub ⟨1, 0⟩ := by decide +kernel
  rw [h1, h2, h3, h4, h5, N2.to_sub, N2.to_neg, N2.to_one]
  exact ⟨rfl, rfl, rfl, rfl, rfl⟩

theorem zeta_rel : N2.cast K (C 2) * N2.cast K (C 2) = N2.cast K (C 2) - 1 := by
  have h : (C 2).mul (C 2) = (C 2).sub ⟨1, 0⟩ := by decide +kernel
  rw [← N2.to_mul, h, N2.to_sub, N2.to_one]

theorem cyclotomicSquare_eq {x : Fp12 K} (h : x.Cyc) : x.cyclotomicSquare = x * x := by
  obtain ⟨⟨x0, x2, x4⟩, ⟨x1, x3, x5⟩⟩ := x
  rw [Cyc, pow_p_pow, pow_p_pow, Fp6.pow_p_pow, Fp6.pow_p_pow, Fp6.pow_p_pow, Fp6.pow_p_pow] at h
  obtain ⟨e1, e2, e3, e4, e5⟩ := zeta_tables (K := K)
  have ez := zeta_rel (K := K)
  rw [e1, e2, e3, e4, e5] at h
  generalize N2.cast K (C 2) = z at *
  have hz0 : z ≠ 0 := by
    rintro rfl
    rw [mul_zero, zero_sub, eq_comm, neg_eq_zero] at ez
    exact one_ne_zero ez
  have hz1 : z - 1 ≠ 0 := by rw [← ez]; exact mul_ne_zero hz0 hz0
  have f4 : ∀ y : Fp2 K, Fp2.frob 4 y = y := fun y => by simp [Fp2.frob]
  have f2 : ∀ y : Fp2 K, Fp2.frob 2 y = y := fun y => by simp [Fp2.frob]
  have hs : ∀ a b c d : Fp2 K, (⟨a, b, c⟩ : Fp6 K) * Fp6.ofFp2 d = ⟨a * d, b * d, c * d⟩ := fun a b c d => by
    ext1 <;> simp [Fp6.ofFp2]
  have m1 : ∀ y, y * -z * (z - 1) = y := fun y => by linear_combination -y * ez
  have m2 : ∀ y, y * (z - 1) * (z - 1) = -(y * z) := fun y => by linear_combination y * ez
  have m3 : ∀ y, y * (z - 1) * z = -y := fun y => by linear_combination y * ez
  have m4 : ∀ y, y * -z * z = y - y * z := fun y => by linear_combination -y * ez
  simp only [f4, f2, hs, m1, m2, m3, m4] at h
  have h00 := congrArg (fun t : Fp12 K => t.c0.c0) h
  have h01 := congrArg (fun t : Fp12 K => t.c0.c1) h
  have h02 := congrArg (fun t : Fp12 K => t.c0.c2) h
  have h10 := congrArg (fun t : Fp12 K => t.c1.c0) h
  have h11 := congrArg (fun t : Fp12 K => t.c1.c1) h
  have h12 := congrArg (fun t : Fp12 K => t.c1.c2) h
  simp only [mul_c0, mul_c1, Fp6.mul_c0, Fp6.mul_c1, Fp6.mul_c2, Fp6.add_c0, Fp6.add_c1, Fp6.add_c2, Fp6.v]
    at h00 h01 h02 h10 h11 h12
  clear h hs
  have k0 : x0 * x0 + Fp2.xi * (x3 * x3) - Fp2.xi * (x1 * x5 + x2 * x4) = x0 := by linear_combination h00
  have k3 : x1 * x2 - 2 * (x0 * x3) + Fp2.xi * x4 * x5 = x3 := by linear_combination -h11
  have k1 : x0 * x1 + Fp2.xi * x3 * x4 - 2 * Fp2.xi * x2 * x5 = x1 :=
    mul_left_cancel₀ hz0 (by linear_combination h10)
  have k2 : x0 * x2 + Fp2.xi * x3 * x5 - (x1 * x1 + Fp2.xi * x4 * x4) = -x2 :=
    mul_left_cancel₀ hz1 (by linear_combination -h01)
  have k4 : x0 * x4 + x1 * x3 - (x2 * x2 + Fp2.xi * x5 * x5) = -x4 :=
    mul_left_cancel₀ hz0 (by linear_combination h02)
  have k5 : x0 * x5 + x2 * x3 - 2 * x1 * x4 = x5 :=
    mul_left_cancel₀ hz1 (by linear_combination -h12)
  clear h00 h01 h02 h10 h11 h12
  ext1 <;> ext1 <;> simp only [cyclotomicSquare, fp4Square, ops_eq, mul_c0, mul_c1, Fp6.mul_c0, Fp6.mul_c1,
    Fp6.mul_c2, Fp6.add_c0, Fp6.add_c1, Fp6.add_c2, Fp6.v]
  · linear_combination 2 * k0
  · linear_combination -2 * k2
  · linear_combination -2 * k4
  · linear_combination -2 * k1
  · linear_combination -2 * k3
  · linear_combination -2 * k5

theorem Cyc.pow {x : Fp12 K} (hx : x.Cyc) (n : ℕ) : (x ^ n).Cyc := by
  induction n with
  | zero => rw [pow_zero]; exact Cyc.one
  | succ n ih => rw [pow_succ]; exact ih.mul hx

theorem cycExpLoop_eq {x : Fp12 K} (hx : x.Cyc) (s : List UInt64) (n : Nat) (z : Fp12 K) (hz : z.Cyc) :
    cycExpLoop x s n z = z ^ 2 ^ n * x ^ (wordsVal s % 2 ^ n) := by
  induction n generalizing z with
  | zero => simp [cycExpLoop, Nat.mod_one]
  | succ n ih =>
    have hz2 := hz.mul hz
    rw [cycExpLoop, cyclotomicSquare_eq hz, Scalar.bit_spec, mod_two_pow_succ_bit]
    by_cases h : (wordsVal s).testBit n = true
    · rw [if_pos h, if_pos h, mul_eq, ih _ (hz2.mul hx), mul_pow, pow_add, ← sq, ← pow_mul, pow_succ' 2]
      ring
    · rw [if_neg h, if_neg h, ih _ hz2, ← sq, ← pow_mul, pow_succ' 2, zero_add]

theorem cyclotomicExp_eq {x : Fp12 K} (hx : x.Cyc) (s : List UInt64) : x.cyclotomicExp s = x ^ wordsVal s := by
  rw [cyclotomicExp, one_eq, cycExpLoop_eq hx s _ _ Cyc.one, one_pow, one_mul, Scalar.bitLength_spec,
    Nat.mod_eq_of_lt (Nat.lt_size_self _)]

end Fp12

end Bls
