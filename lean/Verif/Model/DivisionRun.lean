import Verif.Model.Division

/-!
# The rounds of the loops of `bn_divn_low` (`src/scalar.cpp:236-339`)

The functions of `Model/Division.lean` that contain or call a loop without a fixed number of rounds, written again with
counters: how often `bn_subn_low` was called for the leading digit, and for each further digit how often the body of the
`do … while` loop ran and whether the divisor was added back.
-/

namespace Bls.Division

/-- What one digit of the quotient took: rounds of the `do … while` loop (`src/scalar.cpp:300-313`), and whether the block
after `if(carry)` (`src/scalar.cpp:329-335`) ran. -/
structure Digit where
  rounds : Nat
  back : Bool
deriving DecidableEq, Repr

/-- `topLoop` (`src/scalar.cpp:272-276`); `n` counts the subtractions. -/
def topLoopRun : Nat → UInt64 → List UInt64 → List UInt64 → Nat → Option ((UInt64 × List UInt64) × Nat)
  | 0, _, _, _, _ => none
  | fuel + 1, cn, x, y, n =>
    if dvCmp x y ≠ .lt then topLoopRun fuel (cn + 1) (subn x y 0).1 y (n + 1) else some ((cn, x), n)

/-- `digitLoop` (`src/scalar.cpp:300-313`); `n` counts the times the body ran. -/
def digitLoopRun (v t2 : List UInt64) : Nat → UInt64 → Nat → Option (UInt64 × Nat)
  | 0, _, _ => none
  | fuel + 1, q, n =>
    let q := q - 1
    let (t1, carry) := mul1 q v 0
    if dvCmp (t1 ++ [carry]) t2 = .gt then digitLoopRun v t2 fuel q (n + 1) else some (q, n + 1)

/-- `estimate` (`src/scalar.cpp:290-313`). -/
def estimateRun (a b : List UInt64) (t i : Nat) : Option (UInt64 × Nat) := do
  let ai ← a[i]?
  let ai1 ← a[i - 1]?
  let bt ← b[t]?
  let q ← (if ai = bt then some 0xFFFFFFFFFFFFFFFF
    else if bt = 0 then none else some (UInt64.ofNat ((ai.toNat * 2 ^ 64 + ai1.toNat) / bt.toNat)))
  let v0 ← (if t = 0 then some 0 else b[t - 1]?)
  let u0 ← (if i < 2 then some 0 else a[i - 2]?)
  digitLoopRun [v0, bt] [u0, ai1, ai] (2 ^ 64 + 1) (q + 1) 0

/-- `round` (`src/scalar.cpp:282-336`). -/
def roundRun (b : List UInt64) (sa t : Nat) (k : Nat) (s : List UInt64 × List UInt64 × List UInt64) :
    Option ((List UInt64 × List UInt64 × List UInt64) × Digit) := do
  let (c, d, a) := s
  let (q, n) ← estimateRun a b t (k + t + 1)
  let bw ← slice b 0 (t + 1)
  let (d, a, carry) ← subMul bw sa t k q d a
  if carry ≠ 0 then do
    let a ← addBack bw sa t k a
    let c ← store c k (q - 1)
    some ((c, d, a), ⟨n, true⟩)
  else do
    let c ← store c k q
    some ((c, d, a), ⟨n, false⟩)

/-- `mainLoop` (`src/scalar.cpp:282-336`) with the digits in the order in which they are computed. -/
def mainLoopRun (b : List UInt64) (sa t : Nat) : Nat → List UInt64 × List UInt64 × List UInt64 → List Digit →
    Option ((List UInt64 × List UInt64 × List UInt64) × List Digit)
  | 0, s, ds => some (s, ds)
  | k + 1, s, ds =>
    match roundRun b sa t k s with
    | some (s, d) => mainLoopRun b sa t k s (ds ++ [d])
    | none => none

/-- `bn_divn_low` (`src/scalar.cpp:236-339`) with the number of subtractions for the leading digit and the other digits. -/
def divnLowRun (c d a : List UInt64) (sa : Nat) (b : List UInt64) (sb : Nat) :
    Option ((List UInt64 × List UInt64) × Nat × List Digit) := do
  let (a, sa, b, sb, norm) ← normalize a sa b sb
  if sa < sb then none
  else
    let t := sb - 1
    let m := sa - sb
    let bw ← slice b 0 (sb + m)
    let b := put b 0 (lshd bw m)
    let x ← slice a 0 sa
    let y ← slice b 0 sa
    let cn ← c[m]?
    let ((cn, x), top) ← topLoopRun (2 ^ 64) cn x y 0
    let c ← store c m cn
    let a := put a 0 x
    let bw ← slice b 0 (sb + m)
    let b := put b 0 (rshd bw m)
    let ((c, d, a), digits) ← mainLoopRun b sa t m (c, d, a) []
    let aw ← slice a 0 sb
    rshbShifts norm
    if d.length < sb then none else some ((c, put d 0 (rshb norm aw).1), top, digits)

/-- `bn_divn_safe<N, M>` (`include/bls12-381/scalar.hpp:220-239`) with the counts of `divnLowRun`. -/
def divnSafeRun (a b : List UInt64) : Option ((List UInt64 × List UInt64) × Nat × List Digit) := do
  let n := a.length
  let modulus := b ++ List.replicate (n + 2 - b.length) 0
  let dividend := a ++ [0, 0]
  let ((c, d), run) ← divnLowRun (List.replicate (n + 2) 0) (List.replicate (n + 2) 0) dividend n modulus b.length
  some ((c.take n, d.take b.length), run)

end Bls.Division
