import Verif.Model.Word
import Mathlib.Tactic.Ring
import Mathlib.Tactic.Linarith

/-! Integer specifications of the word primitives. -/

namespace Bls

theorem u64_lt (x : UInt64) : x.toNat < 2 ^ 64 := x.toNat_lt

/-- `2^64` as a literal, for `omega`. -/
theorem two64 : (2:Nat) ^ 64 = 18446744073709551616 := by norm_num

theorem add64_toNat (x y c : UInt64) :
    (add64 x y c).1.toNat = (x.toNat + y.toNat + c.toNat) % 2 ^ 64 := by
  simp [add64, UInt64.toNat_add]

theorem add64_carry_toNat (x y c : UInt64) :
    (add64 x y c).2.toNat = if (x.toNat + y.toNat + c.toNat) % 2 ^ 64 < x.toNat then 1 else 0 := by
  have h := add64_toNat x y c
  simp only [add64] at h ⊢
  simp only [UInt64.lt_iff_toNat_lt, h]
  split <;> simp

/-- `Add64` is exact unless the second operand is `2^64-1` and the carry-in is set. -/
theorem add64_spec (x y c : UInt64) (hc : c.toNat ≤ 1)
    (h : y.toNat ≠ 2 ^ 64 - 1 ∨ c.toNat = 0) :
    (add64 x y c).1.toNat + 2 ^ 64 * (add64 x y c).2.toNat = x.toNat + y.toNat + c.toNat ∧
    (add64 x y c).2.toNat ≤ 1 := by
  rw [add64_toNat, add64_carry_toNat]
  have := u64_lt x; have := u64_lt y
  rw [two64] at *
  split <;> omega

theorem add64_carry_le (x y c : UInt64) : (add64 x y c).2.toNat ≤ 1 := by
  rw [add64_carry_toNat]; split <;> omega

theorem sub64_toNat (x y b : UInt64) (hb : b.toNat ≤ 1) :
    (sub64 x y b).1.toNat = (x.toNat + 2 * 2 ^ 64 - y.toNat - b.toNat) % 2 ^ 64 := by
  simp only [sub64, UInt64.toNat_sub]
  have := u64_lt x; have := u64_lt y
  rw [two64] at *
  omega

theorem sub64_borrow_toNat (x y b : UInt64) (hb : b.toNat ≤ 1) :
    (sub64 x y b).2.toNat =
      if x.toNat < (x.toNat + 2 * 2 ^ 64 - y.toNat - b.toNat) % 2 ^ 64 then 1 else 0 := by
  have h := sub64_toNat x y b hb
  simp only [sub64] at h ⊢
  simp only [gt_iff_lt, UInt64.lt_iff_toNat_lt, h]
  split <;> simp

/-- `Sub64` is exact unless the second operand is `2^64-1` and the borrow-in is set. -/
theorem sub64_spec (x y b : UInt64) (hb : b.toNat ≤ 1)
    (h : y.toNat ≠ 2 ^ 64 - 1 ∨ b.toNat = 0) :
    (sub64 x y b).1.toNat + y.toNat + b.toNat = x.toNat + 2 ^ 64 * (sub64 x y b).2.toNat ∧
    (sub64 x y b).2.toNat ≤ 1 := by
  rw [sub64_toNat _ _ _ hb, sub64_borrow_toNat _ _ _ hb]
  have := u64_lt x; have := u64_lt y
  rw [two64] at *
  split <;> omega

theorem sub64_borrow_le (x y b : UInt64) : (sub64 x y b).2.toNat ≤ 1 := by
  simp only [sub64]; split <;> simp

theorem mul64_spec (x y : UInt64) :
    (mul64 x y).2.toNat + 2 ^ 64 * (mul64 x y).1.toNat = x.toNat * y.toNat := by
  have hx := u64_lt x; have hy := u64_lt y
  have : x.toNat * y.toNat < 2 ^ 64 * 2 ^ 64 := Nat.mul_lt_mul'' hx hy
  have h1 : x.toNat * y.toNat / 2 ^ 64 < 2 ^ 64 := Nat.div_lt_of_lt_mul this
  simp only [mul64, UInt64.toNat_ofNat']
  rw [Nat.mod_eq_of_lt h1]
  omega

/-- The high word of a product is at most `2^64-2`. -/
theorem mul64_hi (x y : UInt64) : (mul64 x y).1.toNat ≤ 2 ^ 64 - 2 := by
  have hx := u64_lt x; have hy := u64_lt y
  have h := mul64_spec x y
  have h2 : x.toNat * y.toNat ≤ (2 ^ 64 - 1) * (2 ^ 64 - 1) :=
    Nat.mul_le_mul (by omega) (by omega)
  have : (2 ^ 64 - 1) * (2 ^ 64 - 1) < 2 ^ 64 * (2 ^ 64 - 1) := by norm_num
  have h3 : 2 ^ 64 * (mul64 x y).1.toNat < 2 ^ 64 * (2 ^ 64 - 1) := by omega
  have := Nat.lt_of_mul_lt_mul_left h3
  omega

theorem u64_mul_le (x y : UInt64) : x.toNat * y.toNat ≤ (2 ^ 64 - 1) * (2 ^ 64 - 1) := by
  have hx := u64_lt x; have hy := u64_lt y
  exact Nat.mul_le_mul (by omega) (by omega)

theorem add64_spec0 (x y : UInt64) :
    (add64 x y 0).1.toNat + 2 ^ 64 * (add64 x y 0).2.toNat = x.toNat + y.toNat := by
  have := (add64_spec x y 0 (by simp) (Or.inr (by simp))).1
  simpa using this

/-- `Add64(x, 0, c)` with a one-bit carry. -/
theorem add64_spec_zero (x c : UInt64) (hc : c.toNat ≤ 1) :
    (add64 x 0 c).1.toNat + 2 ^ 64 * (add64 x 0 c).2.toNat = x.toNat + c.toNat := by
  have := (add64_spec x 0 c hc (Or.inl (by simp))).1
  simpa using this

theorem madd0_spec (a b c : UInt64) :
    ∃ lo, lo < 2 ^ 64 ∧ lo + 2 ^ 64 * (madd0 a b c).toNat = a.toNat * b.toNat + c.toNat := by
  have hm := mul64_spec a b
  have hp := u64_mul_le a b
  have hc := u64_lt c
  have h1 := add64_spec0 (mul64 a b).2 c
  have h1c := add64_carry_le (mul64 a b).2 c 0
  have h2 := add64_spec_zero (mul64 a b).1 _ h1c
  have hl := u64_lt (add64 (mul64 a b).2 c 0).1
  have hr := u64_lt (add64 (mul64 a b).1 0 (add64 (mul64 a b).2 c 0).2).1
  refine ⟨(add64 (mul64 a b).2 c 0).1.toNat, hl, ?_⟩
  simp only [madd0]
  generalize a.toNat * b.toNat = ab at *
  rw [two64] at *
  omega

theorem madd1_spec (a b c : UInt64) :
    (madd1 a b c).2.toNat + 2 ^ 64 * (madd1 a b c).1.toNat = a.toNat * b.toNat + c.toNat := by
  have hm := mul64_spec a b
  have hp := u64_mul_le a b
  have hc := u64_lt c
  have h1 := add64_spec0 (mul64 a b).2 c
  have h1c := add64_carry_le (mul64 a b).2 c 0
  have h2 := add64_spec_zero (mul64 a b).1 _ h1c
  have hl := u64_lt (add64 (mul64 a b).2 c 0).1
  have hr := u64_lt (add64 (mul64 a b).1 0 (add64 (mul64 a b).2 c 0).2).1
  simp only [madd1]
  generalize a.toNat * b.toNat = ab at *
  rw [two64] at *
  omega

theorem madd2_spec (a b c d : UInt64) :
    (madd2 a b c d).2.toNat + 2 ^ 64 * (madd2 a b c d).1.toNat =
      a.toNat * b.toNat + c.toNat + d.toNat := by
  have hm := mul64_spec a b
  have hp := u64_mul_le a b
  have hc := u64_lt c
  have hd := u64_lt d
  have h1 := add64_spec0 c d
  have h1c := add64_carry_le c d 0
  have h2 := add64_spec_zero (mul64 a b).1 _ h1c
  have h3 := add64_spec0 (mul64 a b).2 (add64 c d 0).1
  have h3c := add64_carry_le (mul64 a b).2 (add64 c d 0).1 0
  have h4 := add64_spec_zero (add64 (mul64 a b).1 0 (add64 c d 0).2).1 _ h3c
  simp only [madd2]
  have hl := u64_lt (add64 (mul64 a b).2 (add64 c d 0).1 0).1
  have hr := u64_lt (add64 (add64 (mul64 a b).1 0 (add64 c d 0).2).1 0
    (add64 (mul64 a b).2 (add64 c d 0).1 0).2).1
  have hr' := u64_lt (add64 (mul64 a b).1 0 (add64 c d 0).2).1
  generalize a.toNat * b.toNat = ab at *
  rw [two64] at *
  omega

/-- `madd3` computes `a*b + c + d + 2^64*e` modulo `2^128`. -/
theorem madd3_spec (a b c d e : UInt64) :
    ∃ k, (madd3 a b c d e).2.toNat + 2 ^ 64 * (madd3 a b c d e).1.toNat + 2 ^ 128 * k =
      a.toNat * b.toNat + c.toNat + d.toNat + 2 ^ 64 * e.toNat := by
  have hm := mul64_spec a b
  have hp := u64_mul_le a b
  have hc := u64_lt c
  have hd := u64_lt d
  have he := u64_lt e
  have h1 := add64_spec0 c d
  have h1c := add64_carry_le c d 0
  have h2 := add64_spec_zero (mul64 a b).1 _ h1c
  have h3 := add64_spec0 (mul64 a b).2 (add64 c d 0).1
  have h4 := add64_toNat (add64 (mul64 a b).1 0 (add64 c d 0).2).1 e
    (add64 (mul64 a b).2 (add64 c d 0).1 0).2
  have hr' := u64_lt (add64 (mul64 a b).1 0 (add64 c d 0).2).1
  have hr2 := u64_lt (add64 c d 0).1
  refine ⟨(a.toNat * b.toNat + c.toNat + d.toNat + 2 ^ 64 * e.toNat) / 2 ^ 128, ?_⟩
  simp only [madd3]
  have hl := u64_lt (add64 (mul64 a b).2 (add64 c d 0).1 0).1
  generalize a.toNat * b.toNat = ab at *
  have : (2:Nat) ^ 128 = 340282366920938463463374607431768211456 := by norm_num
  rw [this, two64] at *
  omega

end Bls
