import Verif.Model.Group
import Verif.Model.FpV

/-!
# The comparison operators

`<=>` and `==`, which exist so that the types can be keys of `std::set` and `std::map`.
-/

namespace Bls

/-- One pass of the loop of `fp::cmp` (`include/bls12-381/fp.hpp:52-62`). -/
def cmpWord (a b : UInt64) (rest : Ordering) : Ordering := if a < b then .lt else if a > b then .gt else rest

/-- `fp::cmp`, which is `fp::operator<=>` (`include/bls12-381/fp.hpp:51-64`, `:96`). -/
def Fp.cmp (x y : Fp) : Ordering :=
  cmpWord x.d5 y.d5 <| cmpWord x.d4 y.d4 <| cmpWord x.d3 y.d3 <| cmpWord x.d2 y.d2 <| cmpWord x.d1 y.d1 <| cmpWord x.d0 y.d0 .eq

/-- `fp::operator==` (`include/bls12-381/fp.hpp:97`). -/
def Fp.eqOp (x y : Fp) : Bool := x.cmp y == .eq

/-- A defaulted `operator<=>` (`include/bls12-381/fp.hpp:164`, `include/bls12-381/g.hpp:67`, `:134`) on a class of members `a`, then
`rest`: the first difference decides. -/
def cmpMember (a rest : Ordering) : Ordering := if a ≠ .eq then a else rest

/-- `fp2::operator<=>`, defaulted (`include/bls12-381/fp.hpp:164`); the members are `c0`, `c1` (`:118-119`). -/
def Fp2.cmp {K : Type} (c : K → K → Ordering) (x y : Fp2 K) : Ordering := cmpMember (c x.c0 y.c0) (c x.c1 y.c1)

/-- `fp2::operator==`, implicitly defaulted with `<=>` (`include/bls12-381/fp.hpp:164`): all members are `==`. -/
def Fp2.eqOp {K : Type} (e : K → K → Bool) (x y : Fp2 K) : Bool := e x.c0 y.c0 && e x.c1 y.c1

/-- `g1::operator<=>`, `g2::operator<=>`, defaulted (`include/bls12-381/g.hpp:67`, `:134`); the members are `x`, `y`, `z`
(`include/bls12-381/g.hpp:19-21`, `:85-87`). -/
def Jac.cmp {F : Type} (c : F → F → Ordering) (a b : Jac F) : Ordering :=
  cmpMember (c a.x b.x) (cmpMember (c a.y b.y) (c a.z b.z))

/-- `g1::operator==`, `g2::operator==`, implicitly defaulted (`include/bls12-381/g.hpp:67`, `:134`). -/
def Jac.eqOp {F : Type} (e : F → F → Bool) (a b : Jac F) : Bool := e a.x b.x && (e a.y b.y && e a.z b.z)

/-- The comparisons on canonical values, which use the words (`include/bls12-381/fp.hpp:96-97`). -/
def FpV.cmp {adx : Bool} (x y : FpV adx) : Ordering := x.1.cmp y.1

/-- See `FpV.cmp` (`include/bls12-381/fp.hpp:97`). -/
def FpV.eqOp {adx : Bool} (x y : FpV adx) : Bool := x.1.eqOp y.1

end Bls
