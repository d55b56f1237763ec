import Verif.Model.Scalar

/-!
# Operation signatures of the field classes

The C++ classes `fp`, `fp2`, `fp6`, `fp12` share one interface. The layers above `fp` are written once over
these signatures; `Model/FpV.lean` supplies the `fp` operations that run the x86-64 routines.
-/

namespace Bls

/-- The member functions shared by `fp`, `fp2`, `fp6` and `fp12` (`include/bls12-381/fp.hpp:27-272`). -/
class Ops (F : Type) where
  zero : F
  one : F
  add : F → F → F
  sub : F → F → F
  neg : F → F
  dbl : F → F
  mul : F → F → F
  sqr : F → F
  inv : F → F
  isZero : F → Bool
  isOne : F → Bool
  equal : F → F → Bool

/-- The operations of `class fp` (`include/bls12-381/fp.hpp:27-110`) used by the higher layers.

* `mulLadd x y z` is `_ladd(&t, &x, &y); _multiply(&c, &t, &z)`;
* `mulLdbl x z` is `_ldouble(&t, &x); _multiply(&c, &t, &z)`;
* `const c` is the constant `fp({…})` written in the source as six Montgomery words;
* `toMont` and `fromMont` convert from and to six plain words. -/
class FpOps (K : Type) extends Ops K where
  mulLadd : K → K → K → K
  mulLdbl : K → K → K
  const : Fp → K
  toMont : Fp → K
  fromMont : K → Fp

namespace Ops

variable {F : Type} [Ops F]

/-- The loop of `exp` (`include/bls12-381/scalar.hpp:256-263`): `n` remaining bit positions, from bit `n-1` down to bit 0. -/
def expLoop (x : F) (s : List UInt64) : Nat → F → F
  | 0, z => z
  | n + 1, z =>
    let z := sqr z
    let z := if Scalar.bit s n then mul z x else z
    expLoop x s n z

/-- `fp::exp`, `fp2::exp`, `fp6::exp`, `fp12::exp` (`include/bls12-381/scalar.hpp:251-312`); the four templates
have the same text apart from the type. -/
def exp (x : F) (s : List UInt64) : F := expLoop x s (Scalar.bitLength s) one

end Ops

end Bls
