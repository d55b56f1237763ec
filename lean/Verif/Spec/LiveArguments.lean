import Verif.Spec.Waiting
import Mathlib.Algebra.BigOperators.Group.Finset.Basic

/-! # When a multi-scalar multiplication with buckets reads its arguments -/

namespace Bls

/-- How often the callback has been called when point `i` of `n` is read in window `j`: every window goes over its buckets, then over
the points, then over its buckets again, and calls at every 256th. -/
def callsBefore (n j i : Nat) : Nat :=
  let every256 := fun k => (k + 255) / 256
  j * (2 * every256 (2 ^ sumWidth n - 1) + every256 n) + every256 (2 ^ sumWidth n - 1) + (i / 256 + 1)

/-- Digit `j` of `v` to the base `2^c`, with its weight. -/
def digitPart (c j v : Nat) : Nat := 2 ^ (c * j) * (v / 2 ^ (c * j) % 2 ^ c)

end Bls
