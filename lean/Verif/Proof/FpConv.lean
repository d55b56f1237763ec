import Verif.Model.Fp
import Verif.Proof.Rep

/-! Conversions and comparisons of `class fp`. -/

namespace Bls.Fp

set_option exponentiation.threshold 1000

theorem lt_iff (x y : Fp) : x.lt y = true ↔ x.val < y.val := by
  have h0 := u64_lt x.d0; have h1 := u64_lt x.d1; have h2 := u64_lt x.d2
  have h3 := u64_lt x.d3; have h4 := u64_lt x.d4; have h5 := u64_lt x.d5
  have g0 := u64_lt y.d0; have g1 := u64_lt y.d1; have g2 := u64_lt y.d2
  have g3 := u64_lt y.d3; have g4 := u64_lt y.d4; have g5 := u64_lt y.d5
  simp only [lt, Bool.or_eq_true, Bool.and_eq_true, decide_eq_true_eq, beq_iff_eq,
    UInt64.lt_iff_toNat_lt, ← UInt64.toNat_inj, Fp.val]
  omega

theorem isValid_iff (x : Fp) : x.isValid = true ↔ x.val < p := by
  rw [isValid, lt_iff, MODULUS_val]

theorem equal_iff (x y : Fp) : x.equal y = true ↔ x = y := by
  cases x; cases y
  simp [equal, and_assoc]

theorem zero_val : zero.val = 0 := by decide +kernel

theorem zero_rep : zero.Rep 0 := ⟨by decide +kernel, by rw [zero_val]; simp⟩

theorem cast_of_mod {a b : Nat} (h : a % p = b % p) : (a : ZMod p) = b :=
  (ZMod.natCast_eq_natCast_iff _ _ _).2 h

theorem rep_of_nat {x : Fp} {a : Nat} (h : x.val < p) (h' : x.val % p = a * 2 ^ 384 % p) :
    x.Rep (a : ZMod p) := by
  refine ⟨h, ?_⟩
  have := cast_of_mod h'
  rw [Nat.cast_mul, Nat.cast_pow] at this
  exact this

theorem R1_rep : R1.Rep 1 := by
  have := rep_of_nat (x := R1) (a := 1) (by decide +kernel) (by decide +kernel)
  rwa [Nat.cast_one] at this

theorem one_val : (⟨1, 0, 0, 0, 0, 0⟩ : Fp).val = 1 := by decide +kernel

theorem R2_lt : R2.val < p := by decide +kernel

theorem R2_cast : (R2.val : ZMod p) = 2 ^ 384 * 2 ^ 384 := by
  have : R2.val % p = (2 ^ 384 * 2 ^ 384) % p := by decide +kernel
  have := cast_of_mod this
  rw [Nat.cast_mul, Nat.cast_pow] at this
  exact this

/-- The Montgomery product bound when the second operand is canonical. -/
theorem mul_bound (x : Fp) {y : Fp} (hy : y.val < p) : x.val * y.val < 2 ^ 384 * p :=
  lt_of_le_of_lt (Nat.mul_le_mul_right _ (Fp.val_lt x).le)
      (Nat.mul_lt_mul_of_pos_left hy (by norm_num))

theorem toMont_rep (adx : Bool) (x : Fp) : (x.toMont adx).Rep (x.val : ZMod p) := by
  obtain ⟨h1, h2⟩ := X86.redc_spec (mul_bound x R2_lt)
  rw [← X86.mul_val adx] at h1 h2
  refine ⟨h1, R_cancel ?_⟩
  have := cast_of_mod h2
  rw [Nat.cast_mul, Nat.cast_mul, Nat.cast_pow, R2_cast] at this
  unfold toMont
  rw [mul_comm, mul_assoc]
  exact this

theorem fromMont_spec (adx : Bool) {x : Fp} {a : ZMod p} (hx : x.Rep a) :
    (x.fromMont adx).val < p ∧ ((x.fromMont adx).val : ZMod p) = a := by
  have h1' : (⟨1, 0, 0, 0, 0, 0⟩ : Fp).val < p := by decide +kernel
  obtain ⟨h1, h2⟩ := X86.redc_spec (mul_bound x h1')
  rw [← X86.mul_val adx] at h1 h2
  refine ⟨h1, R_cancel ?_⟩
  have := cast_of_mod h2
  rw [one_val, mul_one, Nat.cast_mul, Nat.cast_pow, hx.2] at this
  unfold fromMont
  rw [mul_comm]
  exact this

theorem fromMont_val (adx : Bool) {x : Fp} {a : ZMod p} (hx : x.Rep a) :
    (x.fromMont adx).val = a.val := by
  obtain ⟨h1, h2⟩ := fromMont_spec adx hx
  rw [← h2, ZMod.val_natCast, Nat.mod_eq_of_lt h1]

end Bls.Fp
