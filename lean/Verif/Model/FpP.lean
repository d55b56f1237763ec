import Verif.Model.Portable
import Verif.Model.Fp
import Verif.Model.Codec
import Verif.Model.Tower

/-!
# `class fp` of the portable build

The member functions of `fp` when `__x86_64__` is not defined: the same C++ text as in `Model/Fp.lean`, with the
routines of `Model/Portable.lean`. The values are all six-word arrays, because the routines do not keep them below `p`.
-/

namespace Bls.Portable

/-- `fp::toMont` (`src/fp.cpp:196-201`). -/
def toMont (x : Fp) : Fp := multiply x Fp.R2

/-- `fp::fromMont` (`src/fp.cpp:203-208`). -/
def fromMont (x : Fp) : Fp := multiply x ⟨1, 0, 0, 0, 0, 0⟩

/-- Phase 1 of `fp::inverse` (`src/fp.cpp:242-274`), as `Fp.invLoop`. -/
def invLoop : Nat → Fp → Fp → Fp → Fp → Nat → Option (Fp × Nat)
  | 0, _, _, _, _, _ => none
  | fuel + 1, u, v, s, r, k =>
    if v.isZero then some (r, k)
    else if u.isEven then invLoop fuel (u.div2 0) v s.mul2 r (k + 1)
    else if v.isEven then invLoop fuel u (v.div2 0) s r.mul2 (k + 1)
    else if v.lt u then
      invLoop fuel ((lsubtract u v).div2 0) v s.mul2 (ladd r s) (k + 1)
    else
      invLoop fuel u ((lsubtract v u).div2 0) (ladd s r) r.mul2 (k + 1)

/-- `fp::inverse` (`src/fp.cpp:221-323`), as `Fp.inverse`. -/
def inverse (x : Fp) : Fp :=
  if x.isZero then Fp.zero
  else match invLoop 768 MODULUS x ⟨1, 0, 0, 0, 0, 0⟩ ⟨0, 0, 0, 0, 0, 0⟩ 0 with
    | none => Fp.zero
    | some (r, k) =>
      let r := if r.lt MODULUS then r else lsubtract r MODULUS
      let u := lsubtract MODULUS r
      let u := if k ≤ 384 then multiply u Fp.R2 else u
      let k := if k ≤ 384 then k + 384 else k
      let u := multiply u Fp.R2
      if k > 2 * 384 then Fp.zero
      else multiply u (Fp.powerOfTwo (2 * 384 - k))

/-- `fp::fromBytesBE` (`src/fp.cpp:20-27`), as `Fp.fromBytesBE`. -/
def fromBytesBE (check mont : Bool) (bs : List UInt8) : Option Fp :=
  let e := Fp.ofWords (Scalar.fromBytesBE 6 bs)
  if check && !e.isValid then none else if mont then some (toMont e) else some e

/-- `fp::fromBytesLE` (`src/fp.cpp:29-36`), as `Fp.fromBytesLE`. -/
def fromBytesLE (check mont : Bool) (bs : List UInt8) : Option Fp :=
  let e := Fp.ofWords (Scalar.fromBytesLE 6 bs)
  if check && !e.isValid then none else if mont then some (toMont e) else some e

/-- `fp::toBytesBE` (`src/fp.cpp:38-42`, `:50-54`), as `Fp.toBytesBE`. -/
def toBytesBE (mont : Bool) (x : Fp) : List UInt8 :=
  if mont then Scalar.toBytesBE (fromMont x).words else Scalar.toBytesBE x.words

/-- `fp::toBytesLE` (`src/fp.cpp:44-48`, `:56-60`), as `Fp.toBytesLE`. -/
def toBytesLE (mont : Bool) (x : Fp) : List UInt8 :=
  if mont then Scalar.toBytesLE (fromMont x).words else Scalar.toBytesLE x.words

end Bls.Portable

namespace Bls

/-- The values of `class fp` in the portable build (`include/bls12-381/fp.hpp:27-31`). -/
def FpP : Type := Fp

/-- Equality of the words, as `fp::operator==` (`include/bls12-381/fp.hpp:97`). -/
instance : DecidableEq FpP := inferInstanceAs (DecidableEq Fp)

/-- `class fp` (`src/fp.cpp:62-323`) over the routines of `src/arithmetic.cpp:12-428`. -/
instance : FpOps FpP where
  zero := Fp.zero
  one := Fp.R1
  add := Portable.add
  sub := Portable.subtract
  neg := Portable.negate
  dbl := Portable.double
  mul := Portable.multiply
  sqr := Portable.square
  inv := Portable.inverse
  isZero := Fp.isZero
  isOne := Fp.isOne
  equal := Fp.equal
  mulLadd x y z := Portable.multiply (Portable.ladd x y) z
  mulLdbl x z := Portable.multiply (Portable.ldouble x) z
  const c := c
  toMont := Portable.toMont
  fromMont := Portable.fromMont

end Bls
