import Verif.Spec.Lawful
import Verif.Proof.OpsAttr
import Verif.Proof.Scalar
import Verif.Proof.TowerField
import Verif.Proof.Limbs


/-! Model operations as field operations. -/

set_option linter.unusedSectionVars false
set_option linter.unnecessarySeqFocus false

namespace Bls

attribute [ops_eq] LawfulOps.zero_eq LawfulOps.one_eq LawfulOps.add_eq LawfulOps.sub_eq LawfulOps.neg_eq
  LawfulOps.dbl_eq LawfulOps.mul_eq LawfulOps.sqr_eq LawfulOps.inv_eq LawfulFp.mulLadd_eq LawfulFp.mulLdbl_eq

namespace Ops

variable {F : Type} [Field F] [Ops F] [LawfulOps F]

theorem isZero_eq (x : F) [Decidable (x = 0)] : isZero x = decide (x = 0) := by
  rw [Bool.eq_iff_iff, LawfulOps.isZero_iff, decide_eq_true_iff]

theorem isZero_false {x : F} : isZero x = false ↔ x ≠ 0 := by
  rw [← Bool.not_eq_true, LawfulOps.isZero_iff]

theorem equal_false {x y : F} : equal x y = false ↔ x ≠ y := by
  rw [← Bool.not_eq_true, LawfulOps.equal_iff]

theorem isOne_false {x : F} : isOne x = false ↔ x ≠ 1 := by
  rw [← Bool.not_eq_true, LawfulOps.isOne_iff]

theorem expLoop_eq (x : F) (s : List UInt64) : ∀ (n : Nat) (z : F),
    expLoop x s n z = z ^ 2 ^ n * x ^ (wordsVal s % 2 ^ n)
  | 0, z => by simp [expLoop, Nat.mod_one]
  | n + 1, z => by
    rw [expLoop, expLoop_eq x s n, Scalar.bit_spec, mod_two_pow_succ_bit, LawfulOps.sqr_eq, LawfulOps.mul_eq]
    by_cases h : (wordsVal s).testBit n = true
    · rw [if_pos h, if_pos h, mul_pow, pow_add, ← sq, ← pow_mul, pow_succ' 2]; ring
    · rw [if_neg h, if_neg h, ← sq, ← pow_mul, pow_succ' 2, zero_add]

/-- `exp` computes the power with the full integer exponent. -/
@[ops_eq] theorem exp_eq (x : F) (s : List UInt64) : exp x s = x ^ wordsVal s := by
  rw [exp, expLoop_eq, LawfulOps.one_eq, one_pow, one_mul, Scalar.bitLength_spec,
    Nat.mod_eq_of_lt (Nat.lt_size_self _)]

end Ops

section

variable {K : Type} [Field K] [FpOps K] [LawfulFp K]

theorem two_pow_384_ne : (2 : K) ^ 384 ≠ 0 := pow_ne_zero _ IsFp.two_ne_zero

/-- Value of a Montgomery literal, given the plain residue `n`. -/
theorem const_eq_of {c : Fp} (n : ℕ) (h : c.val < p) (hn : n * 2 ^ 384 % p = c.val) :
    (FpOps.const c : K) = (n : K) := by
  apply mul_right_cancel₀ (two_pow_384_ne (K := K))
  rw [LawfulFp.const_eq c h]
  have h2 : (((n * 2 ^ 384 : ℕ)) : K) = (c.val : K) := by
    rw [IsFp.natCast_eq_iff, hn, Nat.mod_eq_of_lt h]
  rw [← h2, Nat.cast_mul, Nat.cast_pow, Nat.cast_ofNat]

theorem const_zero : (FpOps.const ⟨0, 0, 0, 0, 0, 0⟩ : K) = 0 := by
  have := const_eq_of (K := K) (c := ⟨0, 0, 0, 0, 0, 0⟩) 0 (by decide +kernel) (by decide +kernel)
  rwa [Nat.cast_zero] at this

theorem fromMont_toMont_lt {c : Fp} (h : c.val < p) : FpOps.fromMont (FpOps.toMont c : K) = c := by
  have h1 := LawfulFp.fromMont_cast (FpOps.toMont c : K)
  rw [LawfulFp.toMont_eq, IsFp.natCast_eq_iff,
    Nat.mod_eq_of_lt (by have := LawfulFp.fromMont_lt (FpOps.toMont c : K); rwa [LawfulFp.toMont_eq] at this),
    Nat.mod_eq_of_lt h] at h1
  rw [LawfulFp.toMont_eq]
  exact Fp.val_inj h1

theorem toMont_fromMont (x : K) : FpOps.toMont (FpOps.fromMont x) = x := by
  rw [LawfulFp.toMont_eq, LawfulFp.fromMont_cast]

end

namespace Fp2

variable {K : Type} [Field K] [FpOps K] [LawfulFp K]

@[ops_eq] theorem zero_eq : (zero : Fp2 K) = 0 := by ext <;> simp only [zero, ops_eq] <;> rfl
@[ops_eq] theorem one_eq : (one : Fp2 K) = 1 := by ext <;> simp only [one, ops_eq] <;> rfl
@[ops_eq] theorem add_eq (x y : Fp2 K) : x.add y = x + y := by ext <;> simp only [add, ops_eq] <;> rfl
@[ops_eq] theorem sub_eq (x y : Fp2 K) : x.sub y = x - y := by ext <;> simp only [sub, ops_eq] <;> rfl
@[ops_eq] theorem neg_eq (x : Fp2 K) : x.neg = -x := by ext <;> simp only [neg, ops_eq] <;> rfl
@[ops_eq] theorem dbl_eq (x : Fp2 K) : x.dbl = x + x := by ext <;> simp only [dbl, ops_eq] <;> rfl
@[ops_eq] theorem mul_eq (x y : Fp2 K) : x.mul y = x * y := by
  ext <;> simp only [mul, ops_eq, mul_c0, mul_c1] <;> ring
@[ops_eq] theorem sqr_eq (x : Fp2 K) : x.sqr = x * x := by
  ext <;> simp only [sqr, ops_eq, mul_c0, mul_c1] <;> ring
@[ops_eq] theorem mulByNonResidue_eq (x : Fp2 K) : x.mulByNonResidue = xi * x := by
  ext <;> simp only [mulByNonResidue, ops_eq, mul_c0, mul_c1, xi] <;> ring
@[ops_eq] theorem mulByB_eq (x : Fp2 K) : x.mulByB = 4 * xi * x := by
  have h4 : (4 : Fp2 K) = 1 + 1 + 1 + 1 := by norm_num
  rw [h4]
  ext <;> simp only [mulByB, ops_eq, mul_c0, mul_c1, xi, add_c0, add_c1, one_c0, one_c1] <;> ring
@[ops_eq] theorem mulByFq_eq (x : Fp2 K) (e : K) : x.mulByFq e = x * ofBase e := by
  ext <;> simp only [mulByFq, ops_eq, mul_c0, mul_c1, ofBase] <;> ring
theorem conjugate_c0 (x : Fp2 K) : x.conjugate.c0 = x.c0 := rfl
theorem conjugate_c1 (x : Fp2 K) : x.conjugate.c1 = -x.c1 := LawfulOps.neg_eq _

@[ops_eq] theorem inv_eq (x : Fp2 K) : x.inv = x⁻¹ := by
  rw [inv_def]
  ext <;> simp only [inv, ops_eq, norm, div_eq_mul_inv] <;> ring

theorem isZero_iff (x : Fp2 K) : x.isZero = true ↔ x = 0 := by
  simp only [isZero, Bool.and_eq_true, LawfulOps.isZero_iff, Fp2.ext_iff, zero_c0, zero_c1]
theorem isOne_iff (x : Fp2 K) : x.isOne = true ↔ x = 1 := by
  simp only [isOne, Bool.and_eq_true, LawfulOps.isZero_iff, LawfulOps.isOne_iff, Fp2.ext_iff, one_c0, one_c1]
theorem equal_iff (x y : Fp2 K) : x.equal y = true ↔ x = y := by
  simp only [equal, Bool.and_eq_true, LawfulOps.equal_iff, Fp2.ext_iff]

instance : LawfulOps (Fp2 K) where
  zero_eq := zero_eq
  one_eq := one_eq
  add_eq := add_eq
  sub_eq := sub_eq
  neg_eq := neg_eq
  dbl_eq := dbl_eq
  mul_eq := mul_eq
  sqr_eq := sqr_eq
  inv_eq := inv_eq
  isZero_iff := isZero_iff
  isOne_iff := isOne_iff
  equal_iff := equal_iff

end Fp2

namespace Fp6

variable {K : Type} [Field K] [FpOps K] [LawfulFp K]

@[ops_eq] theorem zero_eq : (zero : Fp6 K) = 0 := by ext1 <;> simp only [zero, ops_eq] <;> rfl
@[ops_eq] theorem one_eq : (one : Fp6 K) = 1 := by ext1 <;> simp only [one, ops_eq] <;> rfl
@[ops_eq] theorem add_eq (x y : Fp6 K) : x.add y = x + y := by ext1 <;> simp only [add, ops_eq] <;> rfl
@[ops_eq] theorem sub_eq (x y : Fp6 K) : x.sub y = x - y := by ext1 <;> simp only [sub, ops_eq] <;> rfl
@[ops_eq] theorem neg_eq (x : Fp6 K) : x.neg = -x := by ext1 <;> simp only [neg, ops_eq] <;> rfl
@[ops_eq] theorem dbl_eq (x : Fp6 K) : x.dbl = x + x := by ext1 <;> simp only [dbl, ops_eq] <;> rfl
@[ops_eq] theorem mul_eq (x y : Fp6 K) : x.mul y = x * y := by
  ext1 <;> simp only [mul, ops_eq, mul_c0, mul_c1, mul_c2] <;> ring
@[ops_eq] theorem sqr_eq (x : Fp6 K) : x.sqr = x * x := by
  ext1 <;> simp only [sqr, ops_eq, mul_c0, mul_c1, mul_c2] <;> ring
@[ops_eq] theorem mulByNonResidue_eq (x : Fp6 K) : x.mulByNonResidue = v * x := by
  ext1 <;> simp only [mulByNonResidue, ops_eq, mul_c0, mul_c1, mul_c2, v] <;> ring
@[ops_eq] theorem mulByBaseField_eq (x : Fp6 K) (e : Fp2 K) : x.mulByBaseField e = x * ofFp2 e := by
  ext1 <;> simp only [mulByBaseField, ops_eq, mul_c0, mul_c1, mul_c2, ofFp2] <;> ring
/-- `e0 + e1 v`. -/
@[ops_eq] theorem mulBy01_eq (x : Fp6 K) (e0 e1 : Fp2 K) : x.mulBy01 e0 e1 = x * ⟨e0, e1, 0⟩ := by
  ext1 <;> simp only [mulBy01, ops_eq, mul_c0, mul_c1, mul_c2] <;> ring
@[ops_eq] theorem mulBy01Assign_eq (x : Fp6 K) (e0 e1 : Fp2 K) : x.mulBy01Assign e0 e1 = x * ⟨e0, e1, 0⟩ := by
  ext1 <;> simp only [mulBy01Assign, ops_eq, mul_c0, mul_c1, mul_c2] <;> ring
@[ops_eq] theorem mulBy1_eq (x : Fp6 K) (e1 : Fp2 K) : x.mulBy1 e1 = x * ⟨0, e1, 0⟩ := by
  ext1 <;> simp only [mulBy1, ops_eq, mul_c0, mul_c1, mul_c2] <;> ring

@[ops_eq] theorem inv_eq (x : Fp6 K) : x.inv = x⁻¹ := by
  rw [inv_def]
  have e : x.norm = Fp2.xi * (x.c2 * (Fp2.xi * (x.c2 * x.c2) - x.c0 * x.c1) + x.c1 * (x.c1 * x.c1 - x.c0 * x.c2))
      + x.c0 * (x.c0 * x.c0 - Fp2.xi * (x.c1 * x.c2)) := by
    rw [norm]; ring
  ext1 <;> simp only [inv, ops_eq, mul_c0, mul_c1, mul_c2, adj, ofFp2, e] <;> ring

theorem isZero_iff (x : Fp6 K) : x.isZero = true ↔ x = 0 := by
  simp only [isZero, Bool.and_eq_true, Fp2.isZero_iff, Fp6.ext_iff, zero_c0, zero_c1, zero_c2, and_assoc]
theorem isOne_iff (x : Fp6 K) : x.isOne = true ↔ x = 1 := by
  simp only [isOne, Bool.and_eq_true, Fp2.isZero_iff, Fp2.isOne_iff, Fp6.ext_iff, one_c0, one_c1, one_c2, and_assoc]
theorem equal_iff (x y : Fp6 K) : x.equal y = true ↔ x = y := by
  simp only [equal, Bool.and_eq_true, Fp2.equal_iff, Fp6.ext_iff, and_assoc]

instance : LawfulOps (Fp6 K) where
  zero_eq := zero_eq
  one_eq := one_eq
  add_eq := add_eq
  sub_eq := sub_eq
  neg_eq := neg_eq
  dbl_eq := dbl_eq
  mul_eq := mul_eq
  sqr_eq := sqr_eq
  inv_eq := inv_eq
  isZero_iff := isZero_iff
  isOne_iff := isOne_iff
  equal_iff := equal_iff

end Fp6

namespace Fp12

variable {K : Type} [Field K] [FpOps K] [LawfulFp K]

@[ops_eq] theorem zero_eq : (zero : Fp12 K) = 0 := by ext1 <;> simp only [zero, ops_eq] <;> rfl
@[ops_eq] theorem one_eq : (one : Fp12 K) = 1 := by ext1 <;> simp only [one, ops_eq] <;> rfl
@[ops_eq] theorem add_eq (x y : Fp12 K) : x.add y = x + y := by ext1 <;> simp only [add, ops_eq] <;> rfl
@[ops_eq] theorem sub_eq (x y : Fp12 K) : x.sub y = x - y := by ext1 <;> simp only [sub, ops_eq] <;> rfl
@[ops_eq] theorem neg_eq (x : Fp12 K) : x.neg = -x := by ext1 <;> simp only [neg, ops_eq] <;> rfl
@[ops_eq] theorem dbl_eq (x : Fp12 K) : x.dbl = x + x := by ext1 <;> simp only [dbl, ops_eq] <;> rfl
@[ops_eq] theorem mul_eq (x y : Fp12 K) : x.mul y = x * y := by
  ext1 <;> simp only [mul, ops_eq, mul_c0, mul_c1] <;> ring
@[ops_eq] theorem sqr_eq (x : Fp12 K) : x.sqr = x * x := by
  ext1 <;> simp only [sqr, ops_eq, mul_c0, mul_c1] <;> ring

/-- The line value `e0 + e1 v + e4 v w`. -/
def line (e0 e1 e4 : Fp2 K) : Fp12 K := ⟨⟨e0, e1, 0⟩, ⟨0, e4, 0⟩⟩

@[ops_eq] theorem mulBy014_eq (x : Fp12 K) (e0 e1 e4 : Fp2 K) : x.mulBy014 e0 e1 e4 = x * line e0 e1 e4 := by
  have h : (⟨e0, e1 + e4, 0⟩ : Fp6 K) = ⟨e0, e1, 0⟩ + ⟨0, e4, 0⟩ := by ext1 <;> simp
  ext1 <;> simp only [mulBy014, ops_eq, mul_c0, mul_c1, line, h] <;> ring

@[ops_eq] theorem inv_eq (x : Fp12 K) : x.inv = x⁻¹ := by
  rw [inv_def]
  ext1 <;> simp only [inv, ops_eq, norm, div_eq_mul_inv] <;> ring

theorem conjugate_c0 (x : Fp12 K) : x.conjugate.c0 = x.c0 := rfl
theorem conjugate_c1 (x : Fp12 K) : x.conjugate.c1 = -x.c1 := Fp6.neg_eq _

theorem isZero_iff (x : Fp12 K) : x.isZero = true ↔ x = 0 := by
  simp only [isZero, Bool.and_eq_true, Fp6.isZero_iff, Fp12.ext_iff, zero_c0, zero_c1]
theorem isOne_iff (x : Fp12 K) : x.isOne = true ↔ x = 1 := by
  simp only [isOne, Bool.and_eq_true, Fp6.isZero_iff, Fp6.isOne_iff, Fp12.ext_iff, one_c0, one_c1]
theorem equal_iff (x y : Fp12 K) : x.equal y = true ↔ x = y := by
  simp only [equal, Bool.and_eq_true, Fp6.equal_iff, Fp12.ext_iff]

instance : LawfulOps (Fp12 K) where
  zero_eq := zero_eq
  one_eq := one_eq
  add_eq := add_eq
  sub_eq := sub_eq
  neg_eq := neg_eq
  dbl_eq := dbl_eq
  mul_eq := mul_eq
  sqr_eq := sqr_eq
  inv_eq := inv_eq
  isZero_iff := isZero_iff
  isOne_iff := isOne_iff
  equal_iff := equal_iff

end Fp12

end Bls
