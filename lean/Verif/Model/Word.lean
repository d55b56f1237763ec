/-!
# Word primitives

Model of the 64-bit helper functions of `src/arithmetic.cpp`.
`uint64_t` is `UInt64` (wrap-around arithmetic).
-/

namespace Bls

/-- `Add64(x, y, carry)`: `src/arithmetic.cpp:436-445`.
Result: `(sum, carryOut)`. -/
def add64 (x y carry : UInt64) : UInt64 × UInt64 :=
  let sum := (x + y) + carry
  (sum, if sum < x then 1 else 0)

/-- `Sub64(x, y, borrow)`: `src/arithmetic.cpp:452-461`.
Result: `(diff, borrowOut)`. -/
def sub64 (x y borrow : UInt64) : UInt64 × UInt64 :=
  let diff := x - y - borrow
  (diff, if diff > x then 1 else 0)

/-- `Mul64(x, y)`: `src/arithmetic.cpp:468-477`. The 128-bit product is computed in `Nat`
(`unsigned __int128` cannot overflow here). Result: `(hi, lo)`. -/
def mul64 (x y : UInt64) : UInt64 × UInt64 :=
  let result := x.toNat * y.toNat
  (UInt64.ofNat (result / 2 ^ 64), UInt64.ofNat result)

/-- `madd(a, b, t, u, v)`: `src/arithmetic.cpp:479-493`. -/
def madd (a b t u v : UInt64) : UInt64 × UInt64 × UInt64 :=
  let m := mul64 a b
  let r1 := add64 m.2 v 0
  let r2 := add64 m.1 u r1.2
  let r3 := add64 t 0 r2.2
  (r3.1, r2.1, r1.1)

/-- `madd0(a, b, c)`: `src/arithmetic.cpp:496-507`. -/
def madd0 (a b c : UInt64) : UInt64 :=
  let m := mul64 a b
  let r1 := add64 m.2 c 0
  (add64 m.1 0 r1.2).1

/-- `madd1(a, b, c)`: `src/arithmetic.cpp:510-521`. Result `(hi, lo)`. -/
def madd1 (a b c : UInt64) : UInt64 × UInt64 :=
  let m := mul64 a b
  let r1 := add64 m.2 c 0
  let r2 := add64 m.1 0 r1.2
  (r2.1, r1.1)

/-- `madd2(a, b, c, d)`: `src/arithmetic.cpp:524-538`. Result `(hi, lo)`. -/
def madd2 (a b c d : UInt64) : UInt64 × UInt64 :=
  let m := mul64 a b
  let r1 := add64 c d 0
  let r2 := add64 m.1 0 r1.2
  let r3 := add64 m.2 r1.1 0
  let r4 := add64 r2.1 0 r3.2
  (r4.1, r3.1)

/-- `madd2s(a, b, c, d, e)`: `src/arithmetic.cpp:541-561`. Result `(superhi, hi, lo)`. -/
def madd2s (a b c d e : UInt64) : UInt64 × UInt64 × UInt64 :=
  let m := mul64 a b
  let r1 := add64 m.2 m.2 0
  let r2 := add64 m.1 m.1 r1.2
  let r3 := add64 c e 0
  let r4 := add64 r2.1 0 r3.2
  let r5 := add64 r1.1 r3.1 0
  let r6 := add64 r4.1 0 r5.2
  let r7 := add64 r6.1 0 d
  (r2.2, r7.1, r5.1)

/-- `madd1s(a, b, d, e)`: `src/arithmetic.cpp:563-579`. Result `(superhi, hi, lo)`. -/
def madd1s (a b d e : UInt64) : UInt64 × UInt64 × UInt64 :=
  let m := mul64 a b
  let r1 := add64 m.2 m.2 0
  let r2 := add64 m.1 m.1 r1.2
  let r3 := add64 r1.1 e 0
  let r4 := add64 r2.1 0 r3.2
  let r5 := add64 r4.1 0 d
  (r2.2, r5.1, r3.1)

/-- `madd2sb(a, b, c, e)`: `src/arithmetic.cpp:581-599`. Result `(superhi, hi, lo)`. -/
def madd2sb (a b c e : UInt64) : UInt64 × UInt64 × UInt64 :=
  let m := mul64 a b
  let r1 := add64 m.2 m.2 0
  let r2 := add64 m.1 m.1 r1.2
  let r3 := add64 c e 0
  let r4 := add64 r2.1 0 r3.2
  let r5 := add64 r1.1 r3.1 0
  let r6 := add64 r4.1 0 r5.2
  (r2.2, r6.1, r5.1)

/-- `madd1sb(a, b, e)`: `src/arithmetic.cpp:601-615`. Result `(superhi, hi, lo)`. -/
def madd1sb (a b e : UInt64) : UInt64 × UInt64 × UInt64 :=
  let m := mul64 a b
  let r1 := add64 m.2 m.2 0
  let r2 := add64 m.1 m.1 r1.2
  let r3 := add64 r1.1 e 0
  let r4 := add64 r2.1 0 r3.2
  (r2.2, r4.1, r3.1)

/-- `madd3(a, b, c, d, e)`: `src/arithmetic.cpp:617-632`. Result `(hi, lo)`. -/
def madd3 (a b c d e : UInt64) : UInt64 × UInt64 :=
  let m := mul64 a b
  let r1 := add64 c d 0
  let r2 := add64 m.1 0 r1.2
  let r3 := add64 m.2 r1.1 0
  let r4 := add64 r2.1 e r3.2
  (r4.1, r3.1)

end Bls
