import Mathlib.Data.Nat.Size

/-! # Calling a function several times -/

namespace Bls

/-- The state after `n` calls of `y`, or the exception thrown by the first call that throws. -/
def callTimes {σ ε : Type} (y : σ → Except ε σ) : Nat → σ → Except ε σ
  | 0, s => .ok s
  | n + 1, s =>
    match y s with
    | .ok s => callTimes y n s
    | .error e => .error e

/-- How often a multi-scalar multiplication with buckets calls back for `n` points: the scalars are cut into windows of `c`
bits; every window goes twice over its `2^c - 1` buckets and once over the points, and calls at every 256th. -/
def sumCalls (n : Nat) : Nat :=
  let c := if n < 32 then 3 else n.size / 3 + 2
  let every256 := fun k => (k + 255) / 256
  (255 / c + 1) * (2 * every256 (2 ^ c - 1) + every256 n)

end Bls
