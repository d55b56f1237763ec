import Verif.Proof.Frobenius
import Verif.Proof.Word

/-! Square roots, residuosity, sign and lexicographic order. -/

namespace Bls

variable {K : Type} [Field K] [FpOps K] [LawfulFp K]

theorem pPlus1Over4_val : wordsVal FpC.pPlus1Over4 = (p + 1) / 4 := by decide +kernel
theorem pMinus1Over2_val : wordsVal FpC.pMinus1Over2 = (p - 1) / 2 := by decide +kernel
theorem pMinus3Over4_val : wordsVal FpC.pMinus3Over4 = (p - 3) / 4 := by decide +kernel
theorem Q_val : wordsVal FpC.Q = q := by decide +kernel

theorem Fp2.mul_inv {x : Fp2 K} (h : x ≠ 0) : x.mul x.inv = 1 := by
  rw [Fp2.mul_eq, Fp2.inv_eq, mul_inv_cancel₀ h]

theorem Fp6.mul_inv {x : Fp6 K} (h : x ≠ 0) : x.mul x.inv = 1 := by
  rw [Fp6.mul_eq, Fp6.inv_eq, mul_inv_cancel₀ h]

theorem Fp12.mul_inv {x : Fp12 K} (h : x ≠ 0) : x.mul x.inv = 1 := by
  rw [Fp12.mul_eq, Fp12.inv_eq, mul_inv_cancel₀ h]

namespace FpC

theorem sqrt_sq (x : K) : (sqrt x).1 * (sqrt x).1 = x * x ^ ((p - 1) / 2) := by
  have h : (p + 1) / 4 + (p + 1) / 4 = (p - 1) / 2 + 1 := by decide +kernel
  rw [sqrt, Ops.exp_eq, pPlus1Over4_val, ← pow_add, h, pow_succ']

theorem euler {x : K} (h : IsSquare x) (h0 : x ≠ 0) : x ^ ((p - 1) / 2) = 1 := by
  obtain ⟨y, rfl⟩ := h
  have hy : y ≠ 0 := fun h => h0 (by rw [h, zero_mul])
  have e : 2 * ((p - 1) / 2) = p - 1 := by decide +kernel
  rw [← sq, ← pow_mul, e, IsFp.pow_pred hy]

theorem sqrt_iff (x : K) : (sqrt x).2 = true ↔ IsSquare x := by
  have h : (sqrt x).2 = Ops.equal x ((sqrt x).1 * (sqrt x).1) := by
    simp only [sqrt, ops_eq]
  rw [h, LawfulOps.equal_iff]
  constructor
  · intro h; exact ⟨_, h⟩
  · intro hs
    rw [sqrt_sq]
    by_cases h0 : x = 0
    · rw [h0, zero_mul]
    · rw [euler hs h0, mul_one]

theorem sqrt_correct (x : K) (h : (sqrt x).2 = true) : (sqrt x).1 * (sqrt x).1 = x := by
  have hs : (sqrt x).2 = Ops.equal x ((sqrt x).1 * (sqrt x).1) := by
    simp only [sqrt, ops_eq]
  rw [hs, LawfulOps.equal_iff] at h
  exact h.symm

theorem half_pos : (p - 1) / 2 ≠ 0 := by decide +kernel

theorem isQNR_iff (x : K) : isQuadraticNonResidue x = true ↔ x = 0 ∨ ¬ IsSquare x := by
  rw [isQuadraticNonResidue, Bool.not_eq_true', Ops.isOne_false, Ops.exp_eq, pMinus1Over2_val]
  constructor
  · intro h
    by_contra hc
    rw [not_or, not_not] at hc
    exact h (euler hc.2 hc.1)
  · rintro (rfl | h) h1
    · rw [zero_pow half_pos] at h1
      exact zero_ne_one h1
    · exact h ⟨_, by rw [sqrt_sq, h1, mul_one]⟩

/-- `fromMont` of the residue of `n < p` is `n`. -/
theorem fromMont_natCast {n : ℕ} (h : n < p) : (FpOps.fromMont (n : K)).val = n := by
  have h1 := LawfulFp.fromMont_cast (n : K)
  rw [IsFp.natCast_eq_iff, Nat.mod_eq_of_lt (LawfulFp.fromMont_lt _), Nat.mod_eq_of_lt h] at h1
  exact h1

theorem exists_nat (x : K) : ∃ n < p, x = (n : K) :=
  ⟨_, LawfulFp.fromMont_lt x, (LawfulFp.fromMont_cast x).symm⟩

theorem even_low (y : Fp) : (y.d0 &&& 1 == 0) = decide (y.val % 2 = 0) := by
  rw [Bool.eq_iff_iff, beq_iff_eq, decide_eq_true_iff, ← UInt64.toNat_inj, UInt64.toNat_and]
  simp only [UInt64.toNat_one, UInt64.toNat_zero, Nat.and_one_is_mod]
  simp only [Fp.val]
  omega

theorem sign_natCast {n : ℕ} (h : n < p) : sign (n : K) = decide (n % 2 = 0) := by
  rw [sign, even_low, fromMont_natCast h]

theorem half_words : ∀ y : Fp, y.val < 2 ^ 384 := by
  intro y
  have := u64_lt y.d0; have := u64_lt y.d1; have := u64_lt y.d2
  have := u64_lt y.d3; have := u64_lt y.d4; have := u64_lt y.d5
  simp only [Fp.val]
  set_option exponentiation.threshold 1000 in omega

theorem lex_word (y : Fp) :
    ((sub64 y.d5 0x0D0088F51CBFF34D (sub64 y.d4 0x258DD3DB21A5D66B (sub64 y.d3 0xB23BA5C279C2895F
      (sub64 y.d2 0xB39869507B587B12 (sub64 y.d1 0x0F55FFFF58A9FFFF
        (sub64 y.d0 0xDCFF7FFFFFFFD556 0).2).2).2).2).2).2 == 0) = decide ((p - 1) / 2 < y.val) := by
  have hp : (p - 1) / 2 + 1 = 0xDCFF7FFFFFFFD556 + 2 ^ 64 * (0x0F55FFFF58A9FFFF + 2 ^ 64 * (0xB39869507B587B12 +
    2 ^ 64 * (0xB23BA5C279C2895F + 2 ^ 64 * (0x258DD3DB21A5D66B + 2 ^ 64 * 0x0D0088F51CBFF34D)))) := by decide +kernel
  have h0 := sub64_spec y.d0 0xDCFF7FFFFFFFD556 0 (by decide) (by decide)
  generalize sub64 y.d0 0xDCFF7FFFFFFFD556 0 = r0 at *
  have h1 := sub64_spec y.d1 0x0F55FFFF58A9FFFF r0.2 h0.2 (Or.inl (by decide))
  generalize sub64 y.d1 0x0F55FFFF58A9FFFF r0.2 = r1 at *
  have h2 := sub64_spec y.d2 0xB39869507B587B12 r1.2 h1.2 (Or.inl (by decide))
  generalize sub64 y.d2 0xB39869507B587B12 r1.2 = r2 at *
  have h3 := sub64_spec y.d3 0xB23BA5C279C2895F r2.2 h2.2 (Or.inl (by decide))
  generalize sub64 y.d3 0xB23BA5C279C2895F r2.2 = r3 at *
  have h4 := sub64_spec y.d4 0x258DD3DB21A5D66B r3.2 h3.2 (Or.inl (by decide))
  generalize sub64 y.d4 0x258DD3DB21A5D66B r3.2 = r4 at *
  have h5 := sub64_spec y.d5 0x0D0088F51CBFF34D r4.2 h4.2 (Or.inl (by decide))
  generalize sub64 y.d5 0x0D0088F51CBFF34D r4.2 = r5 at *
  rw [Bool.eq_iff_iff, beq_iff_eq, decide_eq_true_iff, ← UInt64.toNat_inj]
  have l0 := u64_lt r0.1; have l1 := u64_lt r1.1; have l2 := u64_lt r2.1
  have l3 := u64_lt r3.1; have l4 := u64_lt r4.1; have l5 := u64_lt r5.1
  simp only [Fp.val]
  rw [Nat.lt_iff_add_one_le, hp]
  simp only [UInt64.reduceToNat] at *
  generalize r0.1.toNat = a0 at *
  generalize r1.1.toNat = a1 at *
  generalize r2.1.toNat = a2 at *
  generalize r3.1.toNat = a3 at *
  generalize r4.1.toNat = a4 at *
  generalize r5.1.toNat = a5 at *
  generalize r0.2.toNat = b0 at *
  generalize r1.2.toNat = b1 at *
  generalize r2.2.toNat = b2 at *
  generalize r3.2.toNat = b3 at *
  generalize r4.2.toNat = b4 at *
  generalize r5.2.toNat = b5 at *
  omega

theorem lexLargest_natCast {n : ℕ} (h : n < p) : lexLargest (n : K) = decide ((p - 1) / 2 < n) := by
  have := lex_word (FpOps.fromMont (n : K))
  rw [fromMont_natCast h] at this
  exact this

end FpC

namespace Fp2

theorem exp_helper (x : Fp2 K) : x ^ ((p - 3) / 4) * x ^ ((p - 3) / 4) * x = x ^ ((p - 1) / 2) ∧
    x ^ ((p - 3) / 4) * x = x ^ ((p + 1) / 4) := by
  have h1 : (p - 3) / 4 + (p - 3) / 4 + 1 = (p - 1) / 2 := by decide +kernel
  have h2 : (p - 3) / 4 + 1 = (p + 1) / 4 := by decide +kernel
  rw [← pow_add, ← pow_succ, ← pow_succ, h1, h2]
  exact ⟨rfl, rfl⟩

theorem negativeOne2_eq : (negativeOne2 : Fp2 K) = -1 := by
  have h : (⟨unmont ⟨0x43f5fffffffcaaae, 0x32b7fff2ed47fffd, 0x07e83a49a2e99d69,
    0xeca8f3318332bb7a, 0xef148d1ea0f4c069, 0x040ab3263eff0206⟩, unmont ⟨0, 0, 0, 0, 0, 0⟩⟩ : N2) = N2.neg ⟨1, 0⟩ := by
    decide +kernel
  rw [negativeOne2, const2 _ _ (by decide +kernel) (by decide +kernel), h, N2.to_neg, N2.to_one]

open Classical in
/-- The two candidate roots of `fp2::sqrt`. -/
theorem sqrt_unfold (x : Fp2 K) : sqrt x = if x ^ ((p - 1) / 2) = -1 then (⟨0, 1⟩ * x ^ ((p + 1) / 4), true)
    else ((x ^ ((p - 1) / 2) + 1) ^ ((p - 1) / 2) * x ^ ((p + 1) / 4),
      equal ((x ^ ((p - 1) / 2) + 1) ^ ((p - 1) / 2) * x ^ ((p + 1) / 4) *
        ((x ^ ((p - 1) / 2) + 1) ^ ((p - 1) / 2) * x ^ ((p + 1) / 4))) x) := by
  have h1 := (exp_helper x).1
  have h2 := (exp_helper x).2
  simp only [sqrt, Ops.exp_eq, pMinus3Over4_val, pMinus1Over2_val, ops_eq, h1, h2, negativeOne2_eq]
  by_cases h : x ^ ((p - 1) / 2) = -1
  · rw [if_pos ((equal_iff _ _).2 h), if_pos h]
    congr 1
    ext <;> simp
  · rw [if_neg (fun h' => h ((equal_iff _ _).1 h')), if_neg h]

theorem root_sq (x : Fp2 K) : x ^ ((p + 1) / 4) * x ^ ((p + 1) / 4) = x ^ ((p - 1) / 2) * x := by
  have h1 : (p + 1) / 4 + (p + 1) / 4 = (p - 1) / 2 + 1 := by decide +kernel
  rw [← pow_add, h1, pow_succ]

theorem sqrt_correct (x : Fp2 K) (h : (sqrt x).2 = true) : (sqrt x).1 * (sqrt x).1 = x := by
  rw [sqrt_unfold] at h ⊢
  by_cases ha : x ^ ((p - 1) / 2) = -1
  · rw [if_pos ha]
    have hu : (⟨0, 1⟩ : Fp2 K) * ⟨0, 1⟩ = -1 := by ext <;> simp
    dsimp only
    rw [mul_mul_mul_comm, hu, root_sq, ha]
    ring
  · rw [if_neg ha] at h ⊢
    exact (equal_iff _ _).1 h

/-- The main case: `x^((p²-1)/2) = 1`. -/
theorem sqrt_of_euler {x : Fp2 K} (h : (x ^ ((p - 1) / 2)) ^ (p + 1) = 1) : (sqrt x).2 = true := by
  rw [sqrt_unfold]
  by_cases ha : x ^ ((p - 1) / 2) = -1
  · rw [if_pos ha]
  · rw [if_neg ha]
    apply (equal_iff _ _).2
    rw [mul_mul_mul_comm, root_sq]
    generalize x ^ ((p - 1) / 2) = α at *
    have h1 : α + 1 ≠ 0 := fun e => ha (eq_neg_of_add_eq_zero_left e)
    have e1 : (p - 1) / 2 + (p - 1) / 2 + 1 = p := by decide +kernel
    have h2 : (α + 1) ^ ((p - 1) / 2) * (α + 1) ^ ((p - 1) / 2) * (α + 1) = α ^ p + 1 := by
      rw [← pow_add, ← pow_succ, e1, add_pow_char, one_pow]
    apply mul_right_cancel₀ h1
    rw [pow_succ] at h
    linear_combination α * x * h2 + x * h

theorem norm_pow_half (x : Fp2 K) : ofBase (x.norm ^ ((p - 1) / 2)) = (x ^ ((p - 1) / 2)) ^ (p + 1) := by
  have h : ofBase x.norm = x ^ (p + 1) := by
    rw [pow_succ, pow_p]
    ext <;> simp [ofBase, conj, norm] <;> ring
  rw [← ofBase_pow, h, ← pow_mul, ← pow_mul, mul_comm]

theorem euler {x : Fp2 K} (h : IsSquare x) (h0 : x ≠ 0) : (x ^ ((p - 1) / 2)) ^ (p + 1) = 1 := by
  obtain ⟨y, rfl⟩ := h
  have hy : y ≠ 0 := fun h => h0 (by rw [h, zero_mul])
  have e : 2 * ((p - 1) / 2 * (p + 1)) + 1 = p ^ 2 := by decide +kernel
  rw [← pow_mul, ← sq, ← pow_mul]
  apply mul_right_cancel₀ hy
  rw [← pow_succ, e, pow_p_pow, one_mul]
  simp [frob]

theorem sqrt_iff (x : Fp2 K) : (sqrt x).2 = true ↔ IsSquare x := by
  constructor
  · intro h; exact ⟨_, (sqrt_correct x h).symm⟩
  · intro hs
    by_cases h0 : x = 0
    · rw [h0, sqrt_unfold, zero_pow (M₀ := Fp2 K) FpC.half_pos, if_neg]
      · apply (equal_iff _ _).2
        have : (p + 1) / 4 ≠ 0 := by decide +kernel
        rw [zero_pow this]; ring
      · intro h
        rw [eq_comm, neg_eq_zero] at h
        exact one_ne_zero h
    · exact sqrt_of_euler (euler hs h0)

theorem isQNR_iff (x : Fp2 K) : isQuadraticNonResidue x = true ↔ x = 0 ∨ ¬ IsSquare x := by
  have hn : isQuadraticNonResidue x = FpC.isQuadraticNonResidue x.norm := by
    simp only [isQuadraticNonResidue, ops_eq]
    congr 1
    simp only [norm]; ring
  rw [hn, FpC.isQuadraticNonResidue, Bool.not_eq_true', Ops.isOne_false, Ops.exp_eq, pMinus1Over2_val]
  have hiff : x.norm ^ ((p - 1) / 2) = 1 ↔ (x ^ ((p - 1) / 2)) ^ (p + 1) = 1 := by
    rw [← norm_pow_half]
    exact ⟨fun h => by rw [h]; rfl, fun h => ofBase_inj h⟩
  rw [Ne, hiff]
  constructor
  · intro h
    by_contra hc
    rw [not_or, not_not] at hc
    exact h (euler hc.2 hc.1)
  · rintro (rfl | h) h1
    · rw [zero_pow FpC.half_pos, zero_pow (by decide +kernel)] at h1
      exact zero_ne_one h1
    · exact h ((sqrt_iff x).1 (sqrt_of_euler h1))

end Fp2

end Bls
