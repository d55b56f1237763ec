import Verif.Model.CallbackSteps
import Verif.Spec.Words
import Mathlib.Data.Nat.Size

/-! # How long a callback has to wait -/

namespace Bls

/-- Nowhere in the list are there more than `n` steps in a row without a call of the callback. -/
def WaitsAtMost (n : Nat) (l : List Step) : Prop :=
  ∀ before between after : List Step, l = before ++ between ++ after → Step.call ∉ between → between.length ≤ n

/-- The width of the windows of a multi-scalar multiplication with buckets, for `n` points. -/
def sumWidth (n : Nat) : Nat := if n < 32 then 3 else n.size / 3 + 2

/-- The number of windows of a scalar of 256 bits. -/
def sumWindows (n : Nat) : Nat := 255 / sumWidth n + 1

/-- The additions of points: one for every digit that is not zero, two for every bucket and one for every window. -/
def sumAdditions (n : Nat) (scalars : List (List UInt64)) : Nat :=
  ((List.range (sumWindows n)).map fun j =>
    (scalars.take n).countP fun s => wordsVal s / 2 ^ (sumWidth n * j) % 2 ^ sumWidth n ≠ 0).sum +
  sumWindows n * (2 * (2 ^ sumWidth n - 1) + 1)

/-- The callback that writes down its calls. -/
def Jac.record : Jac.Yield (List Step) Empty := some fun l => .ok (l ++ [.call])

end Bls
