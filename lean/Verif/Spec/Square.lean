import Verif.Spec.Params
import Mathlib.Algebra.BigOperators.Group.Finset.Basic

/-!
# Montgomery squaring on integers, row by row

Row `i` adds the products of word `i` with the words from `i` on, the mixed ones doubled, to what the rows before have left, and
a multiple of `p` that clears the lowest word.
-/

namespace Bls.Sq

/-- Word `k` of 64 bits. -/
def word (x k : ℕ) : ℕ := x / 2 ^ (64 * k) % 2 ^ 64

/-- What row `i` of the square adds at word `k`. -/
def part (x i k : ℕ) : ℕ := if k < i then 0 else if k = i then word x i * word x i else 2 * (word x i * word x k)

/-- The words below `j` of the sum of `P` and row `i`, with their carry. -/
def row (x P i j : ℕ) : ℕ := ∑ k ∈ Finset.range j, 2 ^ (64 * k) * (word P k + part x i k)

/-- The sum of `t` and the multiple of `p` that clears its lowest word, without this word. -/
def reduce (t : ℕ) : ℕ := (t + t * 0x89f3fffcfffcfffd % 2 ^ 64 * p) / 2 ^ 64

/-- What the rows before row `i` leave. -/
def state (x : ℕ) : ℕ → ℕ
  | 0 => 0
  | i + 1 => reduce (row x (state x i) i 6)

/-- At word `j` of row `i` the sum has a carry that the doubled product does not have by itself. -/
def LosesIn (x P i j : ℕ) : Prop := 2 ^ 128 ≤ part x i j % 2 ^ 128 + word P j + row x P i j / 2 ^ (64 * j)

/-- The same in the course of the squaring of `x`. -/
def Loses (x i j : ℕ) : Prop := LosesIn x (state x i) i j

end Bls.Sq
