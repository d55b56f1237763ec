import Verif.Model.Portable
import Mathlib.Data.Nat.Notation

/-!
# The portable field routines with the tests they make

Each routine of `src/arithmetic.cpp` that contains an `if` is given again, together with the outcomes of the conditions it
evaluates, in order. `&&` and `||` evaluate their second operand only when it is needed. The comparison inside `Add64` and
`Sub64` is left out: it is a value there, not a choice of what to run (`src/arithmetic.cpp:443,459`).
-/

namespace Bls.Portable

/-- The condition `z < MODULUS`, word by word from the top, and the outcomes of the comparisons of words that it evaluates:
`src/arithmetic.cpp:25` (61, 306, 418). -/
def compareRun : List (UInt64 × UInt64) → Bool × List Bool
  | [] => (false, [])
  | [(a, m)] => (a < m, [decide (a < m)])
  | (a, m) :: rest =>
    if a < m then (true, [true])
    else if a == m then
      let r := compareRun rest
      (r.1, false :: true :: r.2)
    else (false, [false, false])

/-- The words that are compared: `src/arithmetic.cpp:25` (61, 306, 418). -/
def comparedWords (z : Fp) : List (UInt64 × UInt64) :=
  [(z.d5, MODULUS.d5), (z.d4, MODULUS.d4), (z.d3, MODULUS.d3), (z.d2, MODULUS.d2), (z.d1, MODULUS.d1), (z.d0, MODULUS.d0)]

/-- The conditional subtraction: `src/arithmetic.cpp:25-34` (61-70, 306-315, 418-427). -/
def condSubRun (z : Fp) : Fp × List Bool :=
  let r := compareRun (comparedWords z)
  (if !r.1 then (subChain z MODULUS).1 else z, r.2)

/-- `_add`: `src/arithmetic.cpp:12-35`. -/
def addRun (x y : Fp) : Fp × List Bool := condSubRun (addChain x y)

/-- `_double`: `src/arithmetic.cpp:48-71`. -/
def doubleRun (x : Fp) : Fp × List Bool := condSubRun (addChain x x)

/-- `_subtract`: `src/arithmetic.cpp:85-104`. -/
def subtractRun (x y : Fp) : Fp × List Bool :=
  let r := subChain x y
  if r.2 != 0 then (addChain r.1 MODULUS, [true]) else (r.1, [false])

/-- `_negate`: `src/arithmetic.cpp:130-145`. -/
def negateRun (x : Fp) : Fp × List Bool :=
  if x.isZero then (x, [true]) else ((subChain MODULUS x).1, [false])

/-- `_multiply`: `src/arithmetic.cpp:197-316`. -/
def multiplyRun (x y : Fp) : Fp × List Bool :=
  let t := mulRound0 x.d0 y
  let t := mulRound x.d1 y t
  let t := mulRound x.d2 y t
  let t := mulRound x.d3 y t
  let t := mulRound x.d4 y t
  let t := mulRound x.d5 y t
  condSubRun t

/-- `_square`: `src/arithmetic.cpp:325-428`. -/
def squareRun (x : Fp) : Fp × List Bool :=
  let p := sqRound0 x
  let p := sqRound1 x p
  let p := sqRound2 x p
  let p := sqRound3 x p
  let p := sqRound4 x p
  let p := sqRound5 x p
  condSubRun p

/-- `n` times `_double(&x, &x)`, as `fp::doubleAssign` does it: `src/arithmetic.cpp:48-71`, `src/fp.cpp:126-129`. -/
def doublingsRun : ℕ → Fp → List (List Bool)
  | 0, _ => []
  | n + 1, x => (doubleRun x).2 :: doublingsRun n (doubleRun x).1

end Bls.Portable
