import Verif.Proof.CarryFp

/-!
# C03: portable backend

The claim is false of `_add`, `_double`, `_subtract`, `_negate` and `_square`; the negations are proved
with concrete valid operands. The parts that hold are `C03_multiply` (all operands), the
`_exact` theorems (if and only if) and the `_partial` theorems.
-/

namespace Bls.Props
open Bls

set_option exponentiation.threshold 1000

/-- A Montgomery product of `x` and `y`: the canonical value `x*y/2^384 mod p`. -/
def IsMontProduct (x y z : Fp) : Prop :=
  z.val < p ∧ 2 ^ 384 * z.val % p = x.val * y.val % p

instance (x y z : Fp) : Decidable (IsMontProduct x y z) :=
  inferInstanceAs (Decidable (_ ∧ _))

/-- `_add` is not exact: `1 + (2^128 - 1)`. -/
theorem C03_add_false : ¬ ∀ x y : Fp, x.Valid → y.Valid →
    (Portable.add x y).val = (x.val + y.val) % p := by
  intro h
  have := h ⟨1, 0, 0, 0, 0, 0⟩ ⟨0xffffffffffffffff, 0xffffffffffffffff, 0, 0, 0, 0⟩
    (by decide +kernel) (by decide +kernel)
  revert this
  decide +kernel

/-- `_double` is not exact. -/
theorem C03_double_false : ¬ ∀ x : Fp, x.Valid → (Portable.double x).val = (2 * x.val) % p := by
  intro h
  have := h ⟨0x8000000000000000, 0xffffffffffffffff, 0, 0, 0, 0⟩ (by decide +kernel)
  revert this
  decide +kernel

/-- `_subtract` is not exact. -/
theorem C03_subtract_false : ¬ ∀ x y : Fp, x.Valid → y.Valid →
    (Portable.subtract x y).val = (x.val + p - y.val) % p := by
  intro h
  have := h ⟨0, 0, 5, 0, 0, 0⟩ ⟨1, 0xffffffffffffffff, 0, 0, 0, 0⟩
    (by decide +kernel) (by decide +kernel)
  revert this
  decide +kernel

/-- `_negate` is not exact. -/
theorem C03_negate_false : ¬ ∀ x : Fp, x.Valid → (Portable.negate x).val = (p - x.val) % p := by
  intro h
  have := h ⟨0xffffffffffffffff, 0xffffffffffffffff, 0, 0, 0, 0⟩ (by decide +kernel)
  revert this
  decide +kernel

/-- `_square` is not exact. -/
theorem C03_square_false : ¬ ∀ x : Fp, x.Valid → IsMontProduct x x (Portable.square x) := by
  intro h
  have := h ⟨0xffffffffffffffff, 0xffffffffffffffff, 0x8000000000000000, 0, 0, 0⟩
    (by decide +kernel)
  revert this
  decide +kernel

/-- `_multiply` is exact for all valid operands, and for lazily added ones. -/
theorem C03_multiply (x y : Fp) (hy : y.val + p < 2 ^ 384) (hxy : x.val * y.val < 2 ^ 384 * p) :
    IsMontProduct x y (Portable.multiply x y) := Portable.multiply_spec x y hy hxy

/-- An operand of `2 p - 2`, which is not reduced. -/
example : IsMontProduct ⟨2, 0, 0, 0, 0, 0⟩ ⟨0x73fdffffffff5554, 0x3d57fffd62a7ffff, 0xce61a541ed61ec48, 0xc8ee9709e70a257e,
    0x96374f6c869759ae, 0x340223d472ffcd34⟩ (Portable.multiply ⟨2, 0, 0, 0, 0, 0⟩ ⟨0x73fdffffffff5554, 0x3d57fffd62a7ffff,
    0xce61a541ed61ec48, 0xc8ee9709e70a257e, 0x96374f6c869759ae, 0x340223d472ffcd34⟩) :=
  C03_multiply _ _ (by decide +kernel) (by decide +kernel)

theorem C03_multiply_valid (x y : Fp) (_hx : x.Valid) (hy : y.Valid) :
    IsMontProduct x y (Portable.multiply x y) := by
  unfold Fp.Valid at *
  refine C03_multiply x y ?_ ?_
  · unfold p at *; omega
  · exact Nat.mul_lt_mul'' (Fp.val_lt x) hy

example : IsMontProduct ⟨7, 0, 0, 0, 0, 5⟩ ⟨0, 9, 0, 0xffffffffffffffff, 0, 1⟩
    (Portable.multiply ⟨7, 0, 0, 0, 0, 5⟩ ⟨0, 9, 0, 0xffffffffffffffff, 0, 1⟩) :=
  C03_multiply_valid _ _ (by decide +kernel) (by decide +kernel)

/-- `_add` is exact when no limb of the second operand is `2^64-1`. Missing: the other operands,
where it can be wrong (`C03_add_false`). -/
theorem C03_add_partial (x y : Fp) (hx : x.Valid) (hy : y.Valid) (h : y.NoFull) :
    (Portable.add x y).val = (x.val + y.val) % p := by
  obtain ⟨k, hk, _⟩ := Portable.addChain_spec x y h
  have := Fp.val_lt (Portable.addChain x y)
  unfold Portable.add
  rw [Portable.condSub_val]
  unfold Fp.Valid at *
  have hk0 : k = 0 := by
    unfold p at *; omega
  subst hk0
  unfold p at *
  split <;> omega

example : (Portable.add ⟨0xffffffffffffffff, 0, 0, 0, 0, 5⟩ ⟨1, 0, 0, 0, 0, 7⟩).val = 2 ^ 64 + 12 * 2 ^ 320 :=
  (C03_add_partial _ _ (by decide +kernel) (by decide +kernel) (by unfold Fp.NoFull; decide +kernel)).trans (by decide +kernel)

/-- `_double` is exact when no limb of the operand is `2^64-1`. Missing: as for `_add`. -/
theorem C03_double_partial (x : Fp) (hx : x.Valid) (h : x.NoFull) :
    (Portable.double x).val = (2 * x.val) % p := by
  have := C03_add_partial x x hx hx h
  rw [two_mul]; exact this

example : (Portable.double ⟨0x8000000000000000, 0, 0, 0, 0, 5⟩).val = 2 ^ 64 + 10 * 2 ^ 320 :=
  (C03_double_partial _ (by decide +kernel) (by unfold Fp.NoFull; decide +kernel)).trans (by decide +kernel)

/-- `_subtract` is exact when no limb of the second operand is `2^64-1`. Missing: as for `_add`. -/
theorem C03_subtract_partial (x y : Fp) (hx : x.Valid) (hy : y.Valid) (h : y.NoFull) :
    (Portable.subtract x y).val = (x.val + p - y.val) % p := by
  obtain ⟨h1, h2⟩ := Portable.subChain_spec x y h
  have hl := Fp.val_lt (Portable.subChain x y).1
  unfold Portable.subtract
  unfold Fp.Valid at *
  simp only [bne_iff_ne, ne_eq, ← UInt64.toNat_inj, UInt64.toNat_zero]
  split
  · obtain ⟨k, hk, _⟩ := Portable.addChain_spec (Portable.subChain x y).1 MODULUS MODULUS_noFull
    rw [ MODULUS_val] at hk
    have hl2 := Fp.val_lt (Portable.addChain (Portable.subChain x y).1 MODULUS)
    unfold p at *
    omega
  · unfold p at *
    omega

example : (Portable.subtract ⟨1, 0, 0, 0, 0, 5⟩ ⟨2, 0, 0, 0, 0, 7⟩).val = p - 1 - 2 * 2 ^ 320 :=
  (C03_subtract_partial _ _ (by decide +kernel) (by decide +kernel) (by unfold Fp.NoFull; decide +kernel)).trans (by decide +kernel)

/-- `_negate` is exact when no limb of the operand is `2^64-1`. Missing: as for `_add`. -/
theorem C03_negate_partial (x : Fp) (hx : x.Valid) (h : x.NoFull) :
    (Portable.negate x).val = (p - x.val) % p := by
  unfold Portable.negate
  unfold Fp.Valid at *
  by_cases hz : x.isZero = true
  · rw [if_pos hz]
    rw [Fp.isZero_iff] at hz
    rw [hz]; decide +kernel
  · rw [if_neg hz]
    rw [Fp.isZero_iff] at hz
    obtain ⟨h1, h2⟩ := Portable.subChain_spec MODULUS x h
    have hl := Fp.val_lt (Portable.subChain MODULUS x).1
    rw [ MODULUS_val] at h1
    unfold p at *
    omega

example : (Portable.negate ⟨1, 0, 0, 0, 0, 5⟩).val = p - 1 - 5 * 2 ^ 320 :=
  (C03_negate_partial _ (by decide +kernel) (by unfold Fp.NoFull; decide +kernel)).trans (by decide +kernel)

/-- `_add` is right on two valid operands if and only if no carry meets a word `2^64-1` of the second one. -/
theorem C03_add_exact (x y : Fp) (hx : x.Valid) (hy : y.Valid) :
    (Portable.add x y).val = (x.val + y.val) % p ↔ ∀ k, ¬ CarryLost x.val y.val k := Portable.add_exact x y hx hy

/-- The operands of `C03_add_false`. -/
example : ¬ ∀ k, ¬ CarryLost (1 : ℕ) (2 ^ 128 - 1) k := by
  have h := C03_add_exact ⟨1, 0, 0, 0, 0, 0⟩ ⟨0xffffffffffffffff, 0xffffffffffffffff, 0, 0, 0, 0⟩ (by decide +kernel) (by decide +kernel)
  rw [show (⟨1, 0, 0, 0, 0, 0⟩ : Fp).val = 1 by decide +kernel,
    show (⟨0xffffffffffffffff, 0xffffffffffffffff, 0, 0, 0, 0⟩ : Fp).val = 2 ^ 128 - 1 by decide +kernel] at h
  exact fun k => absurd (h.2 k) (by decide +kernel)

/-- `_double` is right on a valid operand if and only if no carry meets a word `2^64-1`. -/
theorem C03_double_exact (x : Fp) (hx : x.Valid) :
    (Portable.double x).val = (2 * x.val) % p ↔ ∀ k, ¬ CarryLost x.val x.val k := by
  rw [two_mul]
  exact Portable.add_exact x x hx hx

/-- The operand of `C03_double_false`. -/
example : ¬ ∀ k, ¬ CarryLost (2 ^ 128 - 2 ^ 63) (2 ^ 128 - 2 ^ 63) k := by
  have h := C03_double_exact ⟨0x8000000000000000, 0xffffffffffffffff, 0, 0, 0, 0⟩ (by decide +kernel)
  rw [show (⟨0x8000000000000000, 0xffffffffffffffff, 0, 0, 0, 0⟩ : Fp).val = 2 ^ 128 - 2 ^ 63 by decide +kernel] at h
  exact fun k => absurd (h.2 k) (by decide +kernel)

/-- `_subtract` is right on two valid operands if and only if no borrow meets a word `2^64-1` of the second one. -/
theorem C03_subtract_exact (x y : Fp) (hx : x.Valid) (hy : y.Valid) :
    (Portable.subtract x y).val = (x.val + p - y.val) % p ↔ ∀ k, ¬ BorrowLost x.val y.val k :=
  Portable.subtract_exact x y hx hy

/-- The operands of `C03_subtract_false`. -/
example : ¬ ∀ k, ¬ BorrowLost (5 * 2 ^ 128) (2 ^ 128 - 2 ^ 64 + 1) k := by
  have h := C03_subtract_exact ⟨0, 0, 5, 0, 0, 0⟩ ⟨1, 0xffffffffffffffff, 0, 0, 0, 0⟩ (by decide +kernel) (by decide +kernel)
  rw [show (⟨0, 0, 5, 0, 0, 0⟩ : Fp).val = 5 * 2 ^ 128 by decide +kernel,
    show (⟨1, 0xffffffffffffffff, 0, 0, 0, 0⟩ : Fp).val = 2 ^ 128 - 2 ^ 64 + 1 by decide +kernel] at h
  exact fun k => absurd (h.2 k) (by decide +kernel)

/-- `_negate` is right on a valid operand if and only if no borrow of `p - x` meets a word `2^64-1` of `x`. -/
theorem C03_negate_exact (x : Fp) (hx : x.Valid) :
    (Portable.negate x).val = (p - x.val) % p ↔ ∀ k, ¬ BorrowLost p x.val k := Portable.negate_exact x hx

/-- The operand of `C03_negate_false`. -/
example : ¬ ∀ k, ¬ BorrowLost p (2 ^ 128 - 1) k := by
  have h := C03_negate_exact ⟨0xffffffffffffffff, 0xffffffffffffffff, 0, 0, 0, 0⟩ (by decide +kernel)
  rw [show (⟨0xffffffffffffffff, 0xffffffffffffffff, 0, 0, 0, 0⟩ : Fp).val = 2 ^ 128 - 1 by decide +kernel] at h
  exact fun k => absurd (h.2 k) (by decide +kernel)

/-- `_square` is exact when each doubled product of two of the lower five limbs leaves room for three carries below bit 128.
Missing: the other operands, where it can be wrong (`C03_square_false`); `C03_square_exact` says on which. -/
theorem C03_square_partial (x : Fp) (hx : x.Valid) (h : ∀ i j, i < j → j < 5 → ¬ NoRoom x.val i j) :
    IsMontProduct x x (Portable.square x) := Portable.square_spec x hx (Portable.roomy_of x hx h)

example : ∃ x : Fp, x.Valid ∧ x.NoFull ∧ x.val * 9 > p :=
  ⟨⟨0x39feffffffffaaab, 0x1eabfffeb153ffff, 0x6730d2a0f6b0f624, 0x64774b84f38512bf,
    0x4b1ba7b6434bacd7, 0x0a0111ea397fe69a⟩, by decide +kernel, by unfold Fp.NoFull; decide +kernel, by decide +kernel⟩

/-- A full word without a carry into it, and one with a carry. -/
example : (∀ k < 6, ¬ CarryLost 1 (2 ^ 128 - 2 ^ 64) k) ∧ CarryLost 1 (2 ^ 128 - 1) 1 ∧ BorrowLost (2 ^ 129) (2 ^ 128 - 1) 1 := by
  unfold CarryLost BorrowLost; decide +kernel

/-- The largest valid operand meets the condition of `C03_square_partial`; the one of `C03_square_false` does not. -/
example : (∀ i j, i < j → j < 5 → ¬ NoRoom (p - 1) i j) ∧ NoRoom (2 ^ 128 - 1 + 2 ^ 191) 0 2 := by
  have h : ∀ j < 5, ∀ i < j, ¬ NoRoom (p - 1) i j := by unfold NoRoom; decide +kernel
  exact ⟨fun i j hi hj => h j hj i hi, by unfold NoRoom; decide +kernel⟩

end Bls.Props
