import Verif.Spec.Params
import Mathlib.Data.Nat.Notation

/-!
# What can be seen of a number that is compared with `p` word by word
-/

namespace Bls

/-- `z` and `z'` cannot be told apart by such a comparison: they are on the same side of `p`, and agree with `p` above the
same words. -/
def LooksLike (z z' : ℕ) : Prop :=
  (z < p ↔ z' < p) ∧ ∀ j, 1 ≤ j → (z / 2 ^ (64 * j) = p / 2 ^ (64 * j) ↔ z' / 2 ^ (64 * j) = p / 2 ^ (64 * j))

/-- Above how many of the words 0 to 4 `z` agrees with `p`. -/
def agreeing (z : ℕ) : ℕ := ((List.range 5).filter fun j => z / 2 ^ (64 * (j + 1)) = p / 2 ^ (64 * (j + 1))).length

/-- The outcomes of `less`, `equal`, `less`, `equal`, … for the words of `z` and of `p` from the top, as far as they are needed:
all but the last say that two words are equal, and the last says whether `z` is below `p`. There is no `equal` for word 0. -/
def IsTestRun (l : List Bool) (z : ℕ) : Prop :=
  l.length = 2 * agreeing z + (if z < p ∨ agreeing z = 5 then 1 else 2) ∧ l.getLast? = some (decide (z < p)) ∧
  ∀ i, i + 1 < l.length → l[i]? = some (decide (i % 2 = 1))

/-- `t` is `n / 2^384` modulo `p` as Montgomery's method finds it: the least multiple of `p` that makes `n` divisible is added. -/
def IsReduction (n t : ℕ) : Prop := ∃ m < 2 ^ 384, 2 ^ 384 * t = n + m * p

end Bls
