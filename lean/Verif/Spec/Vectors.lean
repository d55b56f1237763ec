import Mathlib.Data.Nat.Basic

/-!
# What refused memory may do to a call

A block is a number and a size. `grants k n` tells whether the request with number `k` for `n` bytes is granted.
-/

namespace Bls

/-- One of the requests `a, a + 1, …, b - 1` is refused; it is for at most `most` bytes. -/
def Refused (grants : ℕ → ℕ → Bool) (a b most : ℕ) : Prop := ∃ k n, a ≤ k ∧ k < b ∧ n ≤ most ∧ grants k n = false

/-- A call that began after `a` requests with the blocks `blocks` in use and ended after `b` with `blocks'`: it leaves the blocks as they
were, and its outcome is `expected` unless a request was refused (outcome `bad`) or is impossible (outcome `long`). -/
structure Unharmed {ω : Type} (grants : ℕ → ℕ → Bool) (most : ℕ) (impossible : Prop) (bad long expected : ω) (a b : ℕ)
    (blocks blocks' : List (ℕ × ℕ)) (outcome : ω) : Prop where
  returned : blocks' = blocks
  outcome : outcome = expected ∨ (outcome = bad ∧ Refused grants a b most) ∨ (outcome = long ∧ impossible)

end Bls
