import Mathlib.Data.Nat.Notation

/-! # The carries that `Add64` loses and the borrows that `Sub64` loses -/

namespace Bls

/-- In the sum `x + y`, by words of 64 bits: word `k` of `y` is `2^64-1` and there is a carry into it. -/
def CarryLost (x y k : ℕ) : Prop := y / 2 ^ (64 * k) % 2 ^ 64 = 2 ^ 64 - 1 ∧ 2 ^ (64 * k) ≤ x % 2 ^ (64 * k) + y % 2 ^ (64 * k)

/-- In the difference `x - y`, by words of 64 bits: word `k` of `y` is `2^64-1` and there is a borrow from it. -/
def BorrowLost (x y k : ℕ) : Prop := y / 2 ^ (64 * k) % 2 ^ 64 = 2 ^ 64 - 1 ∧ x % 2 ^ (64 * k) < y % 2 ^ (64 * k)

/-- In the square of `x`, by words of 64 bits: the doubled product of words `i` and `j`, cut to 128 bits, is so near to
`2^128` that three more carries could overflow it. -/
def NoRoom (x i j : ℕ) : Prop := 2 ^ 128 - 3 * 2 ^ 64 ≤ 2 * ((x / 2 ^ (64 * i) % 2 ^ 64) * (x / 2 ^ (64 * j) % 2 ^ 64)) % 2 ^ 128

end Bls
