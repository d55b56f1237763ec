import Verif.Model.BucketRun
import Verif.Spec.Waiting

/-!
# The bucket method, as a list of accesses

The scalars are natural numbers here, written in base `2 ^ c`.
-/

namespace Bls

/-- Digit `j` of `v` in base `2 ^ c`. -/
def digitOf (c j v : ℕ) : ℕ := v / 2 ^ (c * j) % 2 ^ c

/-- What is accessed in window `j`: every bucket is emptied, every scalar is looked at, point `i` is put into the bucket of its
digit unless that is zero, and every bucket is summed from the last to the first. -/
def windowPattern (c : ℕ) (vs : List ℕ) (j : ℕ) : List ElementAccess :=
  (List.range (2 ^ c - 1)).map .reset ++
  (vs.zipIdx.flatMap fun e => .scalar e.2 :: if digitOf c j e.1 = 0 then [] else [.put (digitOf c j e.1 - 1) e.2]) ++
  (List.range (2 ^ c - 1)).reverse.map .sum

/-- All windows, and the windows put together from the last to the first. -/
def accessPattern (vs : List ℕ) : List ElementAccess :=
  ((List.range (sumWindows vs.length)).flatMap (windowPattern (sumWidth vs.length) vs)) ++
  (List.range (sumWindows vs.length)).reverse.map .window

end Bls
