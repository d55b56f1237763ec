import Verif.Model.X86Ops

/-!
# `class fp` on limbs (x86-64 build): conversions, comparisons, sign

The parameter `adx` selects the multiplication routine chosen at load time.
-/

namespace Bls.Fp

/-- `fp::zero` (`src/fp.cpp:62-65`). -/
def zero : Fp := ⟨0, 0, 0, 0, 0, 0⟩

/-- `fp::R1` (`src/fp.cpp:377-384`), also `fp::one` (`:67-70`). -/
def R1 : Fp := ⟨0x760900000002fffd, 0xebf4000bc40c0002, 0x5f48985753c758ba, 0x77ce585370525745,
  0x5c071a97a256ec6d, 0x15f65ec3fa80e493⟩

/-- `fp::R2` (`src/fp.cpp:386-393`). -/
def R2 : Fp := ⟨0xf4df1f341c341746, 0x0a76e6a609d104f1, 0x8de5476c4c95b6d5, 0x67eb88a9939d83c0,
  0x9a793e85b519952d, 0x11988fe592cae3aa⟩

/-- `fp::cmp(e) < 0` (`include/bls12-381/fp.hpp:51-64`): from the most significant word down, the first
difference decides. -/
def lt (x y : Fp) : Bool :=
  x.d5 < y.d5 || (x.d5 == y.d5 && (x.d4 < y.d4 || (x.d4 == y.d4 && (x.d3 < y.d3 || (x.d3 == y.d3 &&
    (x.d2 < y.d2 || (x.d2 == y.d2 && (x.d1 < y.d1 || (x.d1 == y.d1 && x.d0 < y.d0)))))))))

/-- `fp::isValid` (`src/fp.cpp:72-75`). -/
def isValid (x : Fp) : Bool := x.lt MODULUS

/-- `fp::isEven` (`src/fp.cpp:82-85`). -/
def isEven (x : Fp) : Bool := x.d0 &&& 1 == 0

/-- `fp::isOdd` (`src/fp.cpp:77-80`). -/
def isOdd (x : Fp) : Bool := x.d0 &&& 1 != 0

/-- `fp::equal` (`src/fp.cpp:97-100`). -/
def equal (x y : Fp) : Bool :=
  x.d0 == y.d0 && x.d1 == y.d1 && x.d2 == y.d2 && x.d3 == y.d3 && x.d4 == y.d4 && x.d5 == y.d5

/-- `fp::isOne` (`src/fp.cpp:92-95`). -/
def isOne (x : Fp) : Bool := x.equal R1

/-- `fp::toMont` (`src/fp.cpp:196-201`). -/
def toMont (adx : Bool) (x : Fp) : Fp := X86.mul adx x R2

/-- `fp::fromMont` (`src/fp.cpp:203-208`). -/
def fromMont (adx : Bool) (x : Fp) : Fp := X86.mul adx x ⟨1, 0, 0, 0, 0, 0⟩

/-- `fp::sign` (`src/fp.cpp:102-105`): `true` when the canonical integer is even. -/
def sign (adx : Bool) (x : Fp) : Bool := (x.fromMont adx).d0 &&& 1 == 0

/-- `fp::isLexicographicallyLargest` (`src/fp.cpp:341-363`): a borrow chain against `(p+1)/2`. -/
def lexLargest (adx : Bool) (x : Fp) : Bool :=
  let y := x.fromMont adx
  let b := (sub64 y.d0 0xDCFF7FFFFFFFD556 0).2
  let b := (sub64 y.d1 0x0F55FFFF58A9FFFF b).2
  let b := (sub64 y.d2 0xB39869507B587B12 b).2
  let b := (sub64 y.d3 0xB23BA5C279C2895F b).2
  let b := (sub64 y.d4 0x258DD3DB21A5D66B b).2
  let b := (sub64 y.d5 0x0D0088F51CBFF34D b).2
  b == 0

/-- `fp::div2` (`src/fp.cpp:174-182`). -/
def div2 (x : Fp) (e : UInt64) : Fp :=
  ⟨x.d0 >>> 1 ||| x.d1 <<< 63, x.d1 >>> 1 ||| x.d2 <<< 63, x.d2 >>> 1 ||| x.d3 <<< 63,
    x.d3 >>> 1 ||| x.d4 <<< 63, x.d4 >>> 1 ||| x.d5 <<< 63, x.d5 >>> 1 ||| e <<< 63⟩

/-- `fp::mul2` (`src/fp.cpp:184-194`); the returned carry is ignored by all callers. -/
def mul2 (x : Fp) : Fp :=
  ⟨x.d0 <<< 1, x.d1 <<< 1 ||| x.d0 >>> 63, x.d2 <<< 1 ||| x.d1 >>> 63, x.d3 <<< 1 ||| x.d2 >>> 63,
    x.d4 <<< 1 ||| x.d3 >>> 63, x.d5 <<< 1 ||| x.d4 >>> 63⟩

/-- Phase 1 of `fp::inverse` (`src/fp.cpp:242-274`): the loop body, run with the remaining iterations as fuel.
Returns `(r, k)` when `v` reached zero, `none` when the loop ended with `found == false`. -/
def invLoop : Nat → Fp → Fp → Fp → Fp → Nat → Option (Fp × Nat)
  | 0, _, _, _, _, _ => none
  | fuel + 1, u, v, s, r, k =>
    if v.isZero then some (r, k)
    else if u.isEven then invLoop fuel (u.div2 0) v s.mul2 r (k + 1)
    else if v.isEven then invLoop fuel u (v.div2 0) s r.mul2 (k + 1)
    else if v.lt u then
      invLoop fuel ((X86.lsub u v).div2 0) v s.mul2 (X86.ladd r s) (k + 1)
    else
      invLoop fuel u ((X86.lsub v u).div2 0) (X86.ladd s r) r.mul2 (k + 1)

/-- `fpPower` of `fp::inverse` (`src/fp.cpp:313-317`): a zero array with `d[power/64] = 1 << (power%64)`. The
array index is below 6 because `384 < k` at that point (`inverse_power_lt`). -/
def powerOfTwo (power : Nat) : Fp :=
  let w : UInt64 := 1 <<< UInt64.ofNat (power % 64)
  match power / 64 with
  | 0 => ⟨w, 0, 0, 0, 0, 0⟩
  | 1 => ⟨0, w, 0, 0, 0, 0⟩
  | 2 => ⟨0, 0, w, 0, 0, 0⟩
  | 3 => ⟨0, 0, 0, w, 0, 0⟩
  | 4 => ⟨0, 0, 0, 0, w, 0⟩
  | _ => ⟨0, 0, 0, 0, 0, w⟩

/-- `fp::inverse` (`src/fp.cpp:221-323`). `u.cmp(v) > 0` is `v.lt u`; `r.cmp(MODULUS) >= 0` is
`!(r.lt MODULUS)`. -/
def inverse (adx : Bool) (x : Fp) : Fp :=
  if x.isZero then zero
  else match invLoop 768 MODULUS x ⟨1, 0, 0, 0, 0, 0⟩ ⟨0, 0, 0, 0, 0, 0⟩ 0 with
    | none => zero
    | some (r, k) =>
      let r := if r.lt MODULUS then r else X86.lsub r MODULUS
      let u := X86.lsub MODULUS r
      let u := if k ≤ 384 then X86.mul adx u R2 else u
      let k := if k ≤ 384 then k + 384 else k
      let u := X86.mul adx u R2
      if k > 2 * 384 then zero
      else X86.mul adx u (powerOfTwo (2 * 384 - k))

end Bls.Fp
