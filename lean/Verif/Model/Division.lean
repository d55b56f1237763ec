import Verif.Model.Scalar
import Verif.Model.Codec

/-!
# Multi-precision division (`src/scalar.cpp:48-339`)

Buffers are `List UInt64`. The word helpers act on lists of words; `divnLow` extracts the words `[off, off+len)` of a
buffer with `slice`, which is `none` when they lie outside the buffer (undefined behaviour), and writes them back
with `put`. A loop that has not ended after `2^64` rounds is `none` too.
-/

namespace Bls.Division

/-- The words `p[0 … len-1]` for `p = buf + off`, as in `bn_subn_low(a + (i - t - 1), …, d, sd)` (`src/scalar.cpp:322`). -/
def slice (buf : List UInt64) (off len : Nat) : Option (List UInt64) :=
  if off + len ≤ buf.length then some ((buf.drop off).take len) else none

/-- `buf` with the words from `off` on replaced by `ws`: the output argument of the helpers (`src/scalar.cpp:322-333`). -/
def put (buf : List UInt64) (off : Nat) (ws : List UInt64) : List UInt64 :=
  buf.take off ++ ws ++ buf.drop (off + ws.length)

/-- One assignment `buf[i] = w`, as `a[sa++] = carry` (`src/scalar.cpp:252`). -/
def store (buf : List UInt64) (i : Nat) (w : UInt64) : Option (List UInt64) :=
  if i < buf.length then some (buf.set i w) else none

/-- `RLC_MASK` (`src/scalar.cpp:50`) for `B < 64`. -/
def mask (bits : Nat) : UInt64 := (1 <<< UInt64.ofNat (bits % 64)) - 1

/-- `bn_lshb_low` (`src/scalar.cpp:51-69`), `carry` being the bits shifted out of the previous word. -/
def lshb (bits : Nat) : List UInt64 → UInt64 → List UInt64 × UInt64
  | [], carry => ([], carry)
  | a :: as, carry =>
    let r := (a >>> UInt64.ofNat (64 - bits)) &&& mask bits
    let c := (a <<< UInt64.ofNat bits) ||| carry
    let (cs, carry) := lshb bits as r
    (c :: cs, carry)

/-- `dv_lshd` in place (`src/scalar.cpp:71-88`): words move from the top down, so none is overwritten before it is
read. `x` is the slice of `size` words. -/
def lshd (x : List UInt64) (digits : Nat) : List UInt64 :=
  List.replicate digits 0 ++ x.take (x.length - digits)

/-- `dv_rshd` in place (`src/scalar.cpp:125-142`). -/
def rshd (x : List UInt64) (digits : Nat) : List UInt64 := x.drop digits ++ List.replicate digits 0

/-- `dv_cmp` (`src/scalar.cpp:90-106`): the highest differing word decides. -/
def dvCmp : List UInt64 → List UInt64 → Ordering
  | a :: as, b :: bs =>
    match dvCmp as bs with
    | .eq => if a ≠ b then (if a > b then .gt else .lt) else .eq
    | r => r
  | _, _ => .eq

/-- `bn_subn_low` (`src/scalar.cpp:108-123`). -/
def subn : List UInt64 → List UInt64 → UInt64 → List UInt64 × UInt64
  | a :: as, b :: bs, carry =>
    let diff := a - b
    let r0 := diff - carry
    let carry := if a < b ∨ (carry ≠ 0 ∧ diff = 0) then 1 else 0
    let (r, carry) := subn as bs carry
    (r0 :: r, carry)
  | _, _, carry => ([], carry)

/-- `bn_mul1_low` (`src/scalar.cpp:144-155`). -/
def mul1 (digit : UInt64) : List UInt64 → UInt64 → List UInt64 × UInt64
  | [], carry => ([], carry)
  | a :: as, carry =>
    let (r1, _) := mul64 a digit
    let r0 := a * digit
    let c := r0 + carry
    let carry := r1 + (if c < carry then 1 else 0)
    let (r, carry) := mul1 digit as carry
    (c :: r, carry)

/-- `bn_sub1_low` (`src/scalar.cpp:157-174`): once the carry is zero the remaining words are copied. -/
def sub1 : List UInt64 → UInt64 → List UInt64 × UInt64
  | [], carry => ([], carry)
  | a :: as, carry =>
    if carry = 0 then (a :: as, 0)
    else
      let r0 := a - carry
      let carry := if r0 > a then 1 else 0
      let (r, carry) := sub1 as carry
      (r0 :: r, carry)

/-- `bn_addn_low` (`src/scalar.cpp:176-192`). -/
def addn : List UInt64 → List UInt64 → UInt64 → List UInt64 × UInt64
  | a :: as, b :: bs, carry =>
    let r0 := a + b
    let c0 : UInt64 := if r0 < a then 1 else 0
    let r1 := r0 + carry
    let c1 : UInt64 := if r1 < r0 then 1 else 0
    let (r, carry) := addn as bs (c0 ||| c1)
    (r1 :: r, carry)
  | _, _, carry => ([], carry)

/-- `bn_add1_low` (`src/scalar.cpp:194-211`). -/
def add1 : List UInt64 → UInt64 → List UInt64 × UInt64
  | [], carry => ([], carry)
  | a :: as, carry =>
    if carry = 0 then (a :: as, 0)
    else
      let r0 := a + carry
      let carry := if r0 < carry then 1 else 0
      let (r, carry) := add1 as carry
      (r0 :: r, carry)

/-- `bn_rshb_low` (`src/scalar.cpp:213-234`): from the top word down. -/
def rshb (bits : Nat) : List UInt64 → List UInt64 × UInt64
  | [] => ([], 0)
  | a :: as =>
    let (cs, carry) := rshb bits as
    let r := a &&& mask bits
    let c := (a >>> UInt64.ofNat bits) ||| (carry <<< UInt64.ofNat ((64 - bits) % 64))
    (c :: cs, r)

/-- The loop for the leading quotient digit (`src/scalar.cpp:272-276`); `cn` is `c[n-t]`, `x` the dividend
`a[0 … sa-1]`, `y` the shifted divisor. -/
def topLoop : Nat → UInt64 → List UInt64 → List UInt64 → Option (UInt64 × List UInt64)
  | 0, _, _, _ => none
  | fuel + 1, cn, x, y =>
    if dvCmp x y ≠ .lt then topLoop fuel (cn + 1) (subn x y 0).1 y else some (cn, x)

/-- The `do … while` loop correcting a quotient digit (`src/scalar.cpp:300-313`), entered with the digit already
incremented once (`:299`). `v` is `[b[t-1], b[t]]`, `t2` the top three words of the dividend. -/
def digitLoop (v t2 : List UInt64) : Nat → UInt64 → Option UInt64
  | 0, _ => none
  | fuel + 1, q =>
    let q := q - 1
    let (t1, carry) := mul1 q v 0
    if dvCmp (t1 ++ [carry]) t2 = .gt then digitLoop v t2 fuel q else some q

/-- The estimate of a quotient digit (`src/scalar.cpp:290-313`) from the top words of the dividend `a` at `i` and the
divisor `b` at `t`. Division by zero is `none`. -/
def estimate (a b : List UInt64) (t i : Nat) : Option UInt64 := do
  let ai ← a[i]?
  let ai1 ← a[i - 1]?
  let bt ← b[t]?
  let q ← (if ai = bt then some 0xFFFFFFFFFFFFFFFF
    else if bt = 0 then none else some (UInt64.ofNat ((ai.toNat * 2 ^ 64 + ai1.toNat) / bt.toNat)))
  let v0 ← (if t = 0 then some 0 else b[t - 1]?)
  let u0 ← (if i < 2 then some 0 else a[i - 2]?)
  digitLoop [v0, bt] [u0, ai1, ai] (2 ^ 64 + 1) (q + 1)

/-- Subtraction of `q` times the divisor at word `k` (`src/scalar.cpp:315-327`): returns `d`, `a` and the borrow.
`bw` is `b[0 … sb-1]`, `sb = t + 1`. -/
def subMul (bw : List UInt64) (sa t k : Nat) (q : UInt64) (d a : List UInt64) :
    Option (List UInt64 × List UInt64 × UInt64) := do
  let (dw, carry) := mul1 q bw 0
  let d ← (if t + 1 ≤ d.length then some (put d 0 dw) else none)
  let d ← (if carry ≠ 0 then store d (t + 1) carry else some d)
  let sd := if carry ≠ 0 then t + 2 else t + 1
  let aw ← slice a k sd
  let dw ← slice d 0 sd
  let (r, carry) := subn aw dw 0
  let a := put a k r
  let sd := sd + k
  if sa > sd then do
    let h ← slice a sd (sa - sd)
    let (h, carry) := sub1 h carry
    some (d, put a sd h, carry)
  else some (d, a, carry)

/-- Adding the divisor back (`src/scalar.cpp:329-335`). -/
def addBack (bw : List UInt64) (sa t k : Nat) (a : List UInt64) : Option (List UInt64) := do
  let sd := t + 1 + k
  let aw ← slice a k (t + 1)
  let (r, carry) := addn aw bw 0
  let a := put a k r
  let h ← slice a sd (sa - sd)
  some (put a sd (add1 h carry).1)

/-- One round of the main loop (`src/scalar.cpp:282-336`) for `i = k + t + 1`. State: `c`, `d`, `a`. The dividend
is `a[0 … sa-1]`, the divisor `b[0 … sb-1]` with `sb = t + 1`; the test `i > sa` (`:285`) is never true. -/
def round (b : List UInt64) (sa t : Nat) (k : Nat) (s : List UInt64 × List UInt64 × List UInt64) :
    Option (List UInt64 × List UInt64 × List UInt64) := do
  let (c, d, a) := s
  let q ← estimate a b t (k + t + 1)
  let bw ← slice b 0 (t + 1)
  let (d, a, carry) ← subMul bw sa t k q d a
  if carry ≠ 0 then do
    let a ← addBack bw sa t k a
    let c ← store c k (q - 1)
    some (c, d, a)
  else do
    let c ← store c k q
    some (c, d, a)

/-- The main loop (`src/scalar.cpp:282-336`): `i = n … t+1`, that is `k = i - t - 1` from `m - 1` down to `0`. -/
def mainLoop (b : List UInt64) (sa t : Nat) : Nat → List UInt64 × List UInt64 × List UInt64 →
    Option (List UInt64 × List UInt64 × List UInt64)
  | 0, s => some s
  | k + 1, s =>
    match round b sa t k s with
    | some s => mainLoop b sa t k s
    | none => none

/-- The shift amounts of `bn_lshb_low` (`src/scalar.cpp:56`, `:62`, `:64`), `64 - bits` and `bits`; `none`: one of them is
not below 64, which is undefined behaviour. -/
def lshbShifts (bits : Nat) : Option Unit := if 0 < bits ∧ bits < 64 then some () else none

/-- The shift amounts of `bn_rshb_low` (`src/scalar.cpp:221`, `:229`), `bits` and `(64 - bits) % 64`; `none` as in
`lshbShifts`. -/
def rshbShifts (bits : Nat) : Option Unit := if bits < 64 then some () else none

/-- The normalisation at the start of `bn_divn_low` (`src/scalar.cpp:244-263`): returns `a, sa, b, sb, norm`. -/
def normalize (a : List UInt64) (sa : Nat) (b : List UInt64) (sb : Nat) :
    Option (List UInt64 × Nat × List UInt64 × Nat × Nat) := do
  let bt ← (if sb = 0 then none else b[sb - 1]?)
  let norm := (64 - Scalar.countlZero bt) % 64
  if norm < 63 then do
    let norm := 63 - norm
    lshbShifts norm
    let aw ← slice a 0 sa
    let (aw, carry) := lshb norm aw 0
    let a := put a 0 aw
    let a ← (if carry ≠ 0 then store a sa carry else some a)
    let sa := if carry ≠ 0 then sa + 1 else sa
    let bw ← slice b 0 sb
    let (bw, carry) := lshb norm bw 0
    let b := put b 0 bw
    let b ← (if carry ≠ 0 then store b sb carry else some b)
    let sb := if carry ≠ 0 then sb + 1 else sb
    some (a, sa, b, sb, norm)
  else some (a, sa, b, sb, 0)

/-- `bn_divn_low` (`src/scalar.cpp:236-339`). Returns the buffers `c` and `d`. If the dividend is shorter than the
normalised divisor, `dv_lshd` is called with a negative shift and writes before its buffer. -/
def divnLow (c d a : List UInt64) (sa : Nat) (b : List UInt64) (sb : Nat) : Option (List UInt64 × List UInt64) := do
  let (a, sa, b, sb, norm) ← normalize a sa b sb
  if sa < sb then none
  else
    let t := sb - 1
    let m := sa - sb
    let bw ← slice b 0 (sb + m)
    let b := put b 0 (lshd bw m)
    let x ← slice a 0 sa
    let y ← slice b 0 sa
    let cn ← c[m]?
    let (cn, x) ← topLoop (2 ^ 64) cn x y
    let c ← store c m cn
    let a := put a 0 x
    let bw ← slice b 0 (sb + m)
    let b := put b 0 (rshd bw m)
    let (c, d, a) ← mainLoop b sa t m (c, d, a)
    let aw ← slice a 0 sb
    rshbShifts norm
    if d.length < sb then none else some (c, put d 0 (rshb norm aw).1)

/-- `bn_divn_safe<N, M>` (`include/bls12-381/scalar.hpp:220-239`), `N = a.length`, `M = b.length`: quotient and
remainder. -/
def divnSafe (a b : List UInt64) : Option (List UInt64 × List UInt64) := do
  let n := a.length
  let modulus := b ++ List.replicate (n + 2 - b.length) 0
  let dividend := a ++ [0, 0]
  let (c, d) ← divnLow (List.replicate (n + 2) 0) (List.replicate (n + 2) 0) dividend n modulus b.length
  some (c.take n, d.take b.length)

end Bls.Division

namespace Bls.Fp

/-- `fp::modPrime` (`include/bls12-381/scalar.hpp:241-249`). -/
def modPrime (adx : Bool) (k : List UInt64) : Option Fp := do
  let (_, r) ← Division.divnSafe k MODULUS.words
  some ((ofWords r).toMont adx)

end Bls.Fp
