import Verif.Model.Alias
import Mathlib.Data.Nat.Notation

/-!
# Ranges of a memory of words

Independent of the model of the division: the words of a range, a memory in which a range has been replaced, and the
positions of a destination that allow a loop to run upwards or downwards.
-/

namespace Bls.Division.Mem

/-- The `n` words at address `a`. -/
def words (m : Heap ℕ UInt64) (a : ℕ) : ℕ → List UInt64
  | 0 => []
  | n + 1 => m a :: words m (a + 1) n

/-- The memory after the words `ws` have been written at address `c`. -/
def write (m : Heap ℕ UInt64) (c : ℕ) : List UInt64 → Heap ℕ UInt64
  | [] => m
  | w :: ws => write (m.put c w) (c + 1) ws

/-- `c` may be written without changing the words that a loop upwards still reads. -/
def Up (c a n : ℕ) : Prop := c ≤ a ∨ a + n ≤ c

/-- As `Up` for loops from the top down; `c`, `a` are the lowest addresses. -/
def Down (c a n : ℕ) : Prop := a ≤ c ∨ c + n ≤ a

end Bls.Division.Mem
