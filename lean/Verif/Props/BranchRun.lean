import Verif.Proof.BranchRun
import Verif.Props.Portable

/-!
# C98: what the branches of the portable field routines show
-/

namespace Bls.Props
open Bls Portable

set_option exponentiation.threshold 1000

/-- The routines with their tests are the routines of C03. -/
theorem C98_same (x y : Fp) : (addRun x y).1 = Portable.add x y ∧ (doubleRun x).1 = Portable.double x ∧
    (subtractRun x y).1 = Portable.subtract x y ∧ (negateRun x).1 = Portable.negate x ∧
    (multiplyRun x y).1 = Portable.multiply x y ∧ (squareRun x).1 = Portable.square x := by
  refine ⟨condSubRun_fst _, condSubRun_fst _, ?_, ?_, condSubRun_fst _, condSubRun_fst _⟩
  · unfold subtractRun Portable.subtract
    simp only []
    split <;> rfl
  · unfold negateRun Portable.negate
    split <;> rfl

example : (squareRun ⟨5, 0, 0, 0, 0, 1⟩).1 = Portable.square ⟨5, 0, 0, 0, 0, 1⟩ := (C98_same ⟨5, 0, 0, 0, 0, 1⟩ default).2.2.2.2.2

/-- Words that are not all ones lose no carry, wherever they stand. -/
private theorem noCarry (n : ℕ) (h : ∀ k < 6, n / 2 ^ (64 * k) % 2 ^ 64 ≠ 2 ^ 64 - 1) (hn : n < 2 ^ 384) (m k : ℕ) :
    ¬ CarryLost m n k := by
  rintro ⟨e, -⟩
  by_cases hk : k < 6
  · exact h k hk e
  · have : (2 : ℕ) ^ 384 ≤ 2 ^ (64 * k) := Nat.pow_le_pow_right (by norm_num) (by omega)
    rw [Nat.div_eq_of_lt (by omega)] at e
    revert e
    decide +kernel

/-- As `noCarry`, for borrows. -/
private theorem noBorrow (n : ℕ) (h : ∀ k < 6, n / 2 ^ (64 * k) % 2 ^ 64 ≠ 2 ^ 64 - 1) (hn : n < 2 ^ 384) (m k : ℕ) :
    ¬ BorrowLost m n k := by
  rintro ⟨e, -⟩
  by_cases hk : k < 6
  · exact h k hk e
  · have : (2 : ℕ) ^ 384 ≤ 2 ^ (64 * k) := Nat.pow_le_pow_right (by norm_num) (by omega)
    rw [Nat.div_eq_of_lt (by omega)] at e
    revert e
    decide +kernel

/-- C98: the tests that an addition and a doubling make, given by the sum. -/
theorem C98_add_tests (x y : Fp) (hx : x.Valid) (hy : y.Valid) (h : ∀ k, ¬ CarryLost x.val y.val k) :
    IsTestRun (addRun x y).2 (x.val + y.val) := by
  have := condSubRun_tests (addChain x y)
  rwa [addChain_val hx hy h] at this

theorem C98_double_tests (x : Fp) (hx : x.Valid) (h : ∀ k, ¬ CarryLost x.val x.val k) :
    IsTestRun (doubleRun x).2 (2 * x.val) := by
  rw [two_mul]
  exact C98_add_tests x x hx hx h

/-- A small sum needs one test, `p - 1` needs eleven. -/
example : (addRun ⟨1, 0, 0, 0, 0, 0⟩ ⟨1, 0, 0, 0, 0, 0⟩).2.length = 1 ∧
    (addRun ⟨0xb9feffffffffaaa9, 0x1eabfffeb153ffff, 0x6730d2a0f6b0f624, 0x64774b84f38512bf, 0x4b1ba7b6434bacd7, 0x1a0111ea397fe69a⟩
      ⟨1, 0, 0, 0, 0, 0⟩).2.length = 11 :=
  ⟨(C98_add_tests _ _ (by decide +kernel) (by decide +kernel) (noCarry _ (by decide +kernel) (by decide +kernel) _)).1.trans
    (by decide +kernel),
  (C98_add_tests _ _ (by decide +kernel) (by decide +kernel) (noCarry _ (by decide +kernel) (by decide +kernel) _)).1.trans
    (by decide +kernel)⟩

example : (doubleRun ⟨0, 0, 0, 0, 0, 0x0d0088f51cbff34d⟩).2 = [false, true, true] ∧
    IsTestRun (doubleRun ⟨0, 0, 0, 0, 0, 0x0d0088f51cbff34d⟩).2 (2 * (0x0d0088f51cbff34d * 2 ^ 320)) :=
  ⟨by decide +kernel, C98_double_tests ⟨0, 0, 0, 0, 0, 0x0d0088f51cbff34d⟩ (by decide +kernel)
    (noCarry _ (by decide +kernel) (by decide +kernel) _)⟩

/-- C98: the tests that a product makes, and those that a square makes where `_square` is right. -/
theorem C98_multiply_tests (x y : Fp) (hy : y.val + p < 2 ^ 384) :
    ∃ t, IsReduction (x.val * y.val) t ∧ IsTestRun (multiplyRun x y).2 t := by
  obtain ⟨t, e, h⟩ := multiplyRun_raw x y hy
  exact ⟨_, h, by rw [e]; exact condSubRun_tests t⟩

theorem C98_square_tests (x : Fp) (hx : x.Valid) (h : ∀ i j, i < j → j < 5 → ¬ NoRoom x.val i j) :
    ∃ t, IsReduction (x.val * x.val) t ∧ IsTestRun (squareRun x).2 t := by
  obtain ⟨t, e, g⟩ := squareRun_raw x hx (roomy_of x hx h)
  exact ⟨_, g, by rw [e]; exact condSubRun_tests t⟩

example : ∃ t, IsReduction (2 ^ 192 * (7 * 2 ^ 192)) t ∧ IsTestRun (multiplyRun ⟨0, 0, 0, 1, 0, 0⟩ ⟨0, 0, 0, 7, 0, 0⟩).2 t :=
  C98_multiply_tests ⟨0, 0, 0, 1, 0, 0⟩ ⟨0, 0, 0, 7, 0, 0⟩ (by decide +kernel)

example : ∃ t, IsReduction (25 * 25) t ∧ IsTestRun (squareRun ⟨25, 0, 0, 0, 0, 0⟩).2 t := by
  have h : ∀ j < 5, ∀ i < j, ¬ NoRoom 25 i j := by unfold NoRoom; decide +kernel
  exact C98_square_tests ⟨25, 0, 0, 0, 0, 0⟩ (by decide +kernel) (fun i j hi hj => h j hj i hi)

/-- C98: two additions make the same tests exactly when their sums look alike beside `p`; in particular the tests show
whether the sum is below `p`. -/
theorem C98_add (x y x' y' : Fp) (hx : x.Valid) (hy : y.Valid) (hx' : x'.Valid) (hy' : y'.Valid)
    (h : ∀ k, ¬ CarryLost x.val y.val k) (h' : ∀ k, ¬ CarryLost x'.val y'.val k) :
    (addRun x y).2 = (addRun x' y').2 ↔ LooksLike (x.val + y.val) (x'.val + y'.val) := by
  rw [addRun, addRun, condSubRun_snd, addChain_val hx hy h, addChain_val hx' hy' h']

/-- Adding one to `p - 1` is seen to differ from adding one to `p - 2`. -/
example : (addRun ⟨0xb9feffffffffaaaa, 0x1eabfffeb153ffff, 0x6730d2a0f6b0f624, 0x64774b84f38512bf, 0x4b1ba7b6434bacd7, 0x1a0111ea397fe69a⟩
    ⟨1, 0, 0, 0, 0, 0⟩).2 ≠ (addRun ⟨0xb9feffffffffaaa9, 0x1eabfffeb153ffff, 0x6730d2a0f6b0f624, 0x64774b84f38512bf, 0x4b1ba7b6434bacd7,
      0x1a0111ea397fe69a⟩ ⟨1, 0, 0, 0, 0, 0⟩).2 := by
  intro e
  have := (C98_add _ _ _ _ (by decide +kernel) (by decide +kernel) (by decide +kernel) (by decide +kernel)
    (noCarry _ (by decide +kernel) (by decide +kernel) _) (noCarry _ (by decide +kernel) (by decide +kernel) _)).1 e
  exact absurd this.1 (by decide +kernel)

/-- C98: the same for doublings. -/
theorem C98_double (x x' : Fp) (hx : x.Valid) (hx' : x'.Valid)
    (h : ∀ k, ¬ CarryLost x.val x.val k) (h' : ∀ k, ¬ CarryLost x'.val x'.val k) :
    (doubleRun x).2 = (doubleRun x').2 ↔ LooksLike (2 * x.val) (2 * x'.val) := by
  rw [two_mul, two_mul]
  exact C98_add x x x' x' hx hx hx' hx' h h'

/-- Doubling `1` is seen to differ from doubling `p - 1`. -/
example : (doubleRun ⟨1, 0, 0, 0, 0, 0⟩).2 ≠ (doubleRun ⟨0xb9feffffffffaaaa, 0x1eabfffeb153ffff, 0x6730d2a0f6b0f624, 0x64774b84f38512bf,
    0x4b1ba7b6434bacd7, 0x1a0111ea397fe69a⟩).2 := by
  intro e
  have := (C98_double _ _ (by decide +kernel) (by decide +kernel)
    (noCarry _ (by decide +kernel) (by decide +kernel) _) (noCarry _ (by decide +kernel) (by decide +kernel) _)).1 e
  exact absurd this.1 (by decide +kernel)

/-- C98: the test of a subtraction shows which operand is larger. -/
theorem C98_subtract (x y : Fp) (hy : y.Valid) (h : ∀ k, ¬ BorrowLost x.val y.val k) :
    (subtractRun x y).2 = [decide (x.val < y.val)] := by
  have := subChain_borrow hy h
  unfold subtractRun
  simp only [bne_iff_ne]
  by_cases g : x.val < y.val
  · rw [if_pos (this.2 g), decide_eq_true g]
  · rw [if_neg (fun e => g (this.1 e)), decide_eq_false g]

example : (subtractRun ⟨7, 0, 0, 0, 0, 1⟩ ⟨8, 0, 0, 0, 0, 1⟩).2 = [true] :=
  (C98_subtract _ _ (by decide +kernel) (noBorrow _ (by decide +kernel) (by decide +kernel) _)).trans (by decide +kernel)

/-- C98: the test of a negation shows whether the operand is zero. -/
theorem C98_negate (x : Fp) : (negateRun x).2 = [decide (x.val = 0)] := by
  have hz : x.isZero = true ↔ x.val = 0 := by
    rw [Fp.isZero_iff]
  unfold negateRun
  by_cases g : x.val = 0
  · rw [if_pos (hz.2 g), decide_eq_true g]
  · rw [if_neg (fun e => g (hz.1 e)), decide_eq_false g]

example : (negateRun ⟨0, 0, 0, 0, 0, 1⟩).2 = [false] := (C98_negate _).trans (by decide +kernel)

/-- C98: the tests of a product show what the reduction looks like before `p` is taken away. -/
theorem C98_multiply (x y x' y' : Fp) (hy : y.val + p < 2 ^ 384) (hy' : y'.val + p < 2 ^ 384) :
    ∃ t t', IsReduction (x.val * y.val) t ∧ IsReduction (x'.val * y'.val) t' ∧
      ((multiplyRun x y).2 = (multiplyRun x' y').2 ↔ LooksLike t t') := by
  obtain ⟨t, e, h⟩ := multiplyRun_raw x y hy
  obtain ⟨t', e', h'⟩ := multiplyRun_raw x' y' hy'
  exact ⟨_, _, h, h', by rw [e, e', condSubRun_snd]⟩

/-- The products of `2^192` by `7 * 2^192` and by `9 * 2^192` are not told apart. -/
example : (multiplyRun ⟨0, 0, 0, 1, 0, 0⟩ ⟨0, 0, 0, 7, 0, 0⟩).2 = (multiplyRun ⟨0, 0, 0, 1, 0, 0⟩ ⟨0, 0, 0, 9, 0, 0⟩).2 := by
  obtain ⟨t, t', ⟨m, hm, e⟩, ⟨m', hm', e'⟩, h⟩ := C98_multiply ⟨0, 0, 0, 1, 0, 0⟩ ⟨0, 0, 0, 7, 0, 0⟩ ⟨0, 0, 0, 1, 0, 0⟩ ⟨0, 0, 0, 9, 0, 0⟩
    (by decide +kernel) (by decide +kernel)
  have e7 : t = 7 := isReduction_unique (n := 2 ^ 384 * 7) ⟨m, hm, e⟩ ⟨0, by norm_num, by norm_num⟩
  have e9 : t' = 9 := isReduction_unique (n := 2 ^ 384 * 9) ⟨m', hm', e'⟩ ⟨0, by norm_num, by norm_num⟩
  rw [h, e7, e9]
  refine ⟨iff_of_true (by decide +kernel) (by decide +kernel), fun j hj => ?_⟩
  have : (2 : ℕ) ^ 64 ≤ 2 ^ (64 * j) := Nat.pow_le_pow_right (by norm_num) (by omega)
  rw [Nat.div_eq_of_lt (by omega : 7 < 2 ^ (64 * j)), Nat.div_eq_of_lt (by omega : 9 < 2 ^ (64 * j))]

/-- Some products are told apart. -/
example : ∃ x y x' y' : Fp, x.Valid ∧ y.Valid ∧ x'.Valid ∧ y'.Valid ∧ (multiplyRun x y).2 ≠ (multiplyRun x' y').2 := by
  refine ⟨⟨1, 0, 0, 0, 0, 0⟩, ⟨1, 0, 0, 0, 0, 0⟩, ⟨0xb9feffffffffaaaa, 0x1eabfffeb153ffff, 0x6730d2a0f6b0f624,
      0x64774b84f38512bf, 0x4b1ba7b6434bacd7, 0x1a0111ea397fe69a⟩, ⟨0xb9feffffffffaaa6, 0x1eabfffeb153ffff, 0x6730d2a0f6b0f624, 0x64774b84f38512bf, 0x4b1ba7b6434bacd7, 0x1a0111ea397fe69a⟩, ?_⟩
  decide +kernel

/-- C98: the same for squares, where `_square` is right. -/
theorem C98_square (x x' : Fp) (hx : x.Valid) (hx' : x'.Valid) (h : ∀ i j, i < j → j < 5 → ¬ NoRoom x.val i j)
    (h' : ∀ i j, i < j → j < 5 → ¬ NoRoom x'.val i j) :
    ∃ t t', IsReduction (x.val * x.val) t ∧ IsReduction (x'.val * x'.val) t' ∧
      ((squareRun x).2 = (squareRun x').2 ↔ LooksLike t t') := by
  obtain ⟨t, e, g⟩ := squareRun_raw x hx (roomy_of x hx h)
  obtain ⟨t', e', g'⟩ := squareRun_raw x' hx' (roomy_of x' hx' h')
  exact ⟨_, _, g, g', by rw [e, e', condSubRun_snd]⟩

example : ∃ t t', IsReduction (25 * 25) t ∧ IsReduction ((5 * 2 ^ 320) * (5 * 2 ^ 320)) t' ∧
    ((squareRun ⟨25, 0, 0, 0, 0, 0⟩).2 = (squareRun ⟨0, 0, 0, 0, 0, 5⟩).2 ↔ LooksLike t t') := by
  have h : ∀ j < 5, ∀ i < j, ¬ NoRoom 25 i j := by unfold NoRoom; decide +kernel
  have h' : ∀ j < 5, ∀ i < j, ¬ NoRoom (5 * 2 ^ 320) i j := by unfold NoRoom; decide +kernel
  exact C98_square ⟨25, 0, 0, 0, 0, 0⟩ ⟨0, 0, 0, 0, 0, 5⟩ (by decide +kernel) (by decide +kernel)
    (fun i j hi hj => h j hj i hi) (fun i j hi hj => h' j hj i hi)

/-- There is only one such `t`. -/
theorem C98_reduction_unique (n t t' : ℕ) (h : IsReduction n t) (h' : IsReduction n t') : t = t' :=
  isReduction_unique h h'

example : IsReduction (2 ^ 384 * 7) 7 ∧ ∀ t, IsReduction (2 ^ 384 * 7) t → t = 7 := by
  have h : IsReduction (2 ^ 384 * 7) 7 := ⟨0, by norm_num, by norm_num⟩
  exact ⟨h, fun t ht => C98_reduction_unique _ _ _ ht h⟩

/-- C98: the tests of 381 doublings in a row tell everything about the value that is doubled. -/
theorem C98_doublings (x x' : Fp) (hx : x.Valid) (hx' : x'.Valid)
    (h : ∀ i < 381, ∀ k, ¬ CarryLost (2 ^ i * x.val % p) (2 ^ i * x.val % p) k)
    (h' : ∀ i < 381, ∀ k, ¬ CarryLost (2 ^ i * x'.val % p) (2 ^ i * x'.val % p) k)
    (e : doublingsRun 381 x = doublingsRun 381 x') : x = x' := by
  have := doublings_value 381 x x' hx hx' h h' e
  refine Fp.val_inj ?_
  have hp : p < 2 ^ 381 := by decide +kernel
  generalize x.val = a at *
  generalize x'.val = b at *
  generalize p = q at *
  clear h h' e hx hx'
  omega

example : doublingsRun 381 ⟨1, 0, 0, 0, 0, 0⟩ ≠ doublingsRun 381 ⟨2, 0, 0, 0, 0, 0⟩ := by
  have g : ∀ n < 382, ∀ k < 6, (2 ^ n * 1 % p) / 2 ^ (64 * k) % 2 ^ 64 ≠ 2 ^ 64 - 1 := by decide +kernel
  have lt : ∀ a : ℕ, a % p < 2 ^ 384 := fun a => (Nat.mod_lt a (by decide +kernel)).trans (by decide +kernel)
  intro e
  have := C98_doublings ⟨1, 0, 0, 0, 0, 0⟩ ⟨2, 0, 0, 0, 0, 0⟩ (by decide +kernel) (by decide +kernel)
    (fun i hi => noCarry _ (g i (by omega)) (lt _) _)
    (fun i hi => by
      have g' := g (i + 1) (by omega)
      rw [pow_succ, mul_assoc, mul_one] at g'
      exact noCarry _ g' (lt _) _) e
  exact absurd this (by decide)

end Bls.Props
