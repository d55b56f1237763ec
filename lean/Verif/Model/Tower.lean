import Verif.Model.Ops

/-!
# `fp2`, `fp6`, `fp12`

Transcription of `src/fp.cpp:456-1584` over any implementation of `fp`. The `…Assign` members modify `*this`; here
they return the new value, and the copying members (`add` = copy, then `addAssign`) are the same function. Local
arrays `t[k]` become the let-bindings `tk`. For operands that are the object itself see `Model/Alias.lean`.
-/

namespace Bls

/-- `class fp2` (`include/bls12-381/fp.hpp:114-170`): `c0 + c1 u`. -/
@[ext] structure Fp2 (K : Type) where
  c0 : K
  c1 : K
deriving DecidableEq

/-- `class fp6` (`include/bls12-381/fp.hpp:174-221`): `c0 + c1 v + c2 v²`. -/
@[ext] structure Fp6 (K : Type) where
  c0 : Fp2 K
  c1 : Fp2 K
  c2 : Fp2 K
deriving DecidableEq

/-- `class fp12` (`include/bls12-381/fp.hpp:225-272`): `c0 + c1 w`. -/
@[ext] structure Fp12 (K : Type) where
  c0 : Fp6 K
  c1 : Fp6 K
deriving DecidableEq

variable {K : Type} [FpOps K]

open Ops FpOps

/-! ## fp -/

namespace FpC

/-- `fp::B` (`src/fp.cpp:395-402`). -/
def B : K := const ⟨0xaa270000000cfff3, 0x53cc0032fc34000a, 0x478fe97a6b0a807f, 0xb1d37ebee6ba24d7,
  0x8ec9733bbf78ab2f, 0x09d645513d83de7e⟩

/-- `fp::twoInv` (`src/fp.cpp:404-411`). -/
def twoInv : K := const ⟨0x1804000000015554, 0x855000053ab00001, 0x633cb57c253c276f, 0x6e22d1ec31ebb502,
  0xd3916126f2d14ca2, 0x17fbb8571a006596⟩

/-- `fp::glvPhi1` (`src/fp.cpp:413-420`). -/
def glvPhi1 : K := const ⟨0xcd03c9e48671f071, 0x5dab22461fcda5d2, 0x587042afd3851b95, 0x8eb60ebe01bacb9e,
  0x03f97d6e83d050d2, 0x18f0206554638741⟩

/-- `fp::Q` (`src/fp.cpp:422-427`). -/
def Q : List UInt64 := [0xffffffff00000001, 0x53bda402fffe5bfe, 0x3339d80809a1d805, 0x73eda753299d7d48]

/-- `fp::pPlus1Over4` (`src/fp.cpp:429-436`). -/
def pPlus1Over4 : List UInt64 := [0xee7fbfffffffeaab, 0x07aaffffac54ffff, 0xd9cc34a83dac3d89, 0xd91dd2e13ce144af,
  0x92c6e9ed90d2eb35, 0x0680447a8e5ff9a6]

/-- `fp::pMinus1Over2` (`src/fp.cpp:438-445`). -/
def pMinus1Over2 : List UInt64 := [0xdcff7fffffffd555, 0x0f55ffff58a9ffff, 0xb39869507b587b12, 0xb23ba5c279c2895f,
  0x258dd3db21a5d66b, 0x0d0088f51cbff34d]

/-- `fp::pMinus3Over4` (`src/fp.cpp:447-454`). -/
def pMinus3Over4 : List UInt64 := [0xee7fbfffffffeaaa, 0x07aaffffac54ffff, 0xd9cc34a83dac3d89, 0xd91dd2e13ce144af,
  0x92c6e9ed90d2eb35, 0x0680447a8e5ff9a6]

/-- `fp::phi` (`src/fp.cpp:210-215`). -/
def phi (x : K) : K := mul x glvPhi1

/-- `fp::sqrt` (`src/fp.cpp:325-332`): the candidate root and the returned flag. -/
def sqrt (x : K) : K × Bool :=
  let c := exp x pPlus1Over4
  let v := sqr c
  (c, equal x v)

/-- `fp::isQuadraticNonResidue` (`src/fp.cpp:334-338`). -/
def isQuadraticNonResidue (x : K) : Bool := !isOne (exp x pMinus1Over2)

/-- `fp::sign` (`src/fp.cpp:102-105`). -/
def sign (x : K) : Bool := (fromMont x).d0 &&& 1 == 0

/-- `fp::isLexicographicallyLargest` (`src/fp.cpp:341-363`): a borrow chain against `(p+1)/2`. -/
def lexLargest (x : K) : Bool :=
  let y := fromMont x
  let b := (sub64 y.d0 0xDCFF7FFFFFFFD556 0).2
  let b := (sub64 y.d1 0x0F55FFFF58A9FFFF b).2
  let b := (sub64 y.d2 0xB39869507B587B12 b).2
  let b := (sub64 y.d3 0xB23BA5C279C2895F b).2
  let b := (sub64 y.d4 0x258DD3DB21A5D66B b).2
  let b := (sub64 y.d5 0x0D0088F51CBFF34D b).2
  b == 0

end FpC

/-! ## fp2 -/

namespace Fp2

/-- `fp2::zero` (`src/fp.cpp:510-513`). -/
def zero : Fp2 K := ⟨Ops.zero, Ops.zero⟩

/-- `fp2::one` (`src/fp.cpp:515-518`). -/
def one : Fp2 K := ⟨Ops.one, Ops.zero⟩

/-- `fp2::isOne` (`src/fp.cpp:520-523`). -/
def isOne (x : Fp2 K) : Bool := Ops.isOne x.c0 && Ops.isZero x.c1

/-- `fp2::isZero` (`src/fp.cpp:525-528`). -/
def isZero (x : Fp2 K) : Bool := Ops.isZero x.c0 && Ops.isZero x.c1

/-- `fp2::equal` (`src/fp.cpp:530-533`). -/
def equal (x y : Fp2 K) : Bool := Ops.equal x.c0 y.c0 && Ops.equal x.c1 y.c1

/-- `fp2::sign` (`src/fp.cpp:535-543`). -/
def sign (x : Fp2 K) : Bool :=
  if !Ops.isZero x.c0 then (fromMont x.c0).d0 &&& 1 == 0 else (fromMont x.c1).d0 &&& 1 == 0

/-- `fp2::add`, `fp2::addAssign` (`src/fp.cpp:545-556`). -/
def add (x e : Fp2 K) : Fp2 K := ⟨Ops.add x.c0 e.c0, Ops.add x.c1 e.c1⟩

/-- `fp2::dbl`, `fp2::doubleAssign` (`src/fp.cpp:558-569`). -/
def dbl (x : Fp2 K) : Fp2 K := ⟨Ops.dbl x.c0, Ops.dbl x.c1⟩

/-- `fp2::subtract`, `fp2::subtractAssign` (`src/fp.cpp:571-582`). -/
def sub (x e : Fp2 K) : Fp2 K := ⟨Ops.sub x.c0 e.c0, Ops.sub x.c1 e.c1⟩

/-- `fp2::negate` (`src/fp.cpp:584-590`). -/
def neg (x : Fp2 K) : Fp2 K := ⟨Ops.neg x.c0, Ops.neg x.c1⟩

/-- `fp2::conjugate` (`src/fp.cpp:592-598`). -/
def conjugate (x : Fp2 K) : Fp2 K := ⟨x.c0, Ops.neg x.c1⟩

/-- `fp2::multiply`, `fp2::multiplyAssign` (`src/fp.cpp:600-618`). -/
def mul (x e : Fp2 K) : Fp2 K :=
  let t1 := Ops.mul x.c0 e.c0
  let t2 := Ops.mul x.c1 e.c1
  let t0 := Ops.add x.c0 x.c1
  let t3 := Ops.add e.c0 e.c1
  let c0 := Ops.sub t1 t2
  let t1 := Ops.add t1 t2
  let t0 := Ops.mul t0 t3
  let c1 := Ops.sub t0 t1
  ⟨c0, c1⟩

/-- `fp2::square`, `fp2::squareAssign` (`src/fp.cpp:620-635`), with the lazy additions. -/
def sqr (x : Fp2 K) : Fp2 K :=
  let t1 := Ops.sub x.c0 x.c1
  ⟨mulLadd x.c0 x.c1 t1, mulLdbl x.c0 x.c1⟩

/-- `fp2::mulByNonResidue` (`src/fp.cpp:637-645`). -/
def mulByNonResidue (x : Fp2 K) : Fp2 K := ⟨Ops.sub x.c0 x.c1, Ops.add x.c0 x.c1⟩

/-- `fp2::mulByB` (`src/fp.cpp:647-658`). -/
def mulByB (x : Fp2 K) : Fp2 K :=
  let t0 := Ops.dbl x.c0
  let t1 := Ops.dbl x.c1
  let t0 := Ops.dbl t0
  let t1 := Ops.dbl t1
  ⟨Ops.sub t0 t1, Ops.add t0 t1⟩

/-- `fp2::inverse` (`src/fp.cpp:660-672`). -/
def inv (x : Fp2 K) : Fp2 K :=
  let t0 := Ops.sqr x.c0
  let t1 := Ops.sqr x.c1
  let t0 := Ops.add t0 t1
  let t0 := Ops.inv t0
  let c0 := Ops.mul x.c0 t0
  let t0 := Ops.mul t0 x.c1
  ⟨c0, Ops.neg t0⟩

/-- `fp2::mulByFq` (`src/fp.cpp:674-680`). -/
def mulByFq (x : Fp2 K) (e : K) : Fp2 K := ⟨Ops.mul x.c0 e, Ops.mul x.c1 e⟩

/-- `fp2::frobeniusMap`, `fp2::frobeniusMapAssign` (`src/fp.cpp:682-701`). -/
def frobeniusMap (x : Fp2 K) (power : Nat) : Fp2 K :=
  if power % 2 = 1 then ⟨x.c0, Ops.neg x.c1⟩ else x

/-- The member functions of `fp2` (`include/bls12-381/fp.hpp:114-170`). -/
instance : Ops (Fp2 K) where
  zero := zero
  one := one
  add := add
  sub := sub
  neg := neg
  dbl := dbl
  mul := mul
  sqr := sqr
  inv := inv
  isZero := isZero
  isOne := isOne
  equal := equal

/-- `fp2::negativeOne2` (`src/fp.cpp:740-757`). -/
def negativeOne2 : Fp2 K := ⟨const ⟨0x43f5fffffffcaaae, 0x32b7fff2ed47fffd, 0x07e83a49a2e99d69,
  0xeca8f3318332bb7a, 0xef148d1ea0f4c069, 0x040ab3263eff0206⟩, const ⟨0, 0, 0, 0, 0, 0⟩⟩

/-- `fp2::B` (`src/fp.cpp:759-776`). -/
def B : Fp2 K := ⟨const ⟨0xaa270000000cfff3, 0x53cc0032fc34000a, 0x478fe97a6b0a807f, 0xb1d37ebee6ba24d7,
  0x8ec9733bbf78ab2f, 0x09d645513d83de7e⟩, const ⟨0xaa270000000cfff3, 0x53cc0032fc34000a, 0x478fe97a6b0a807f,
  0xb1d37ebee6ba24d7, 0x8ec9733bbf78ab2f, 0x09d645513d83de7e⟩⟩

/-- `fp2::psiX` (`src/fp.cpp:778-795`). -/
def psiX : Fp2 K := ⟨const ⟨0, 0, 0, 0, 0, 0⟩, const ⟨0x890dc9e4867545c3, 0x2af322533285a5d5, 0x50880866309b7e2c,
  0xa20d1b8c7e881024, 0x14e4f04fe2db9068, 0x14e56d3f1564853a⟩⟩

/-- `fp2::psiY` (`src/fp.cpp:797-814`). -/
def psiY : Fp2 K := ⟨const ⟨0x3e2f585da55c9ad1, 0x4294213d86c18183, 0x382844c88b623732, 0x92ad2afd19103e18,
  0x1d794e4fac7cf0b9, 0x0bd592fc7d825ec8⟩, const ⟨0x7bcfa7a25aa30fda, 0xdc17dec12a927e7c, 0x2f088dd86b4ebef1,
  0xd1ca2087da74d4a7, 0x2da2596696cebc1d, 0x0e2b7eedbbfd87d2⟩⟩

/-- `fp2::sqrt` (`src/fp.cpp:703-722`): the candidate root and the returned flag. -/
def sqrt (x : Fp2 K) : Fp2 K × Bool :=
  let a1 := Ops.exp x FpC.pMinus3Over4
  let alpha := sqr a1
  let alpha := mul alpha x
  let x0 := mul a1 x
  if equal alpha negativeOne2 then
    (⟨Ops.neg x0.c1, x0.c0⟩, true)
  else
    let alpha := add alpha one
    let alpha := Ops.exp alpha FpC.pMinus1Over2
    let c := mul alpha x0
    let alpha := sqr c
    (c, equal alpha x)

/-- `fp2::isQuadraticNonResidue` (`src/fp.cpp:724-732`). -/
def isQuadraticNonResidue (x : Fp2 K) : Bool :=
  let t0 := Ops.sqr x.c0
  let t1 := Ops.sqr x.c1
  let t1 := Ops.add t1 t0
  FpC.isQuadraticNonResidue t1

/-- `fp2::isLexicographicallyLargest` (`src/fp.cpp:735-738`). -/
def lexLargest (x : Fp2 K) : Bool :=
  FpC.lexLargest x.c1 || (Ops.isZero x.c1 && FpC.lexLargest x.c0)

end Fp2

/-! ## fp6 -/

namespace Fp6

/-- `fp6::zero` (`src/fp.cpp:874-877`). -/
def zero : Fp6 K := ⟨Fp2.zero, Fp2.zero, Fp2.zero⟩

/-- `fp6::one` (`src/fp.cpp:879-882`). -/
def one : Fp6 K := ⟨Fp2.one, Fp2.zero, Fp2.zero⟩

/-- `fp6::isOne` (`src/fp.cpp:884-887`). -/
def isOne (x : Fp6 K) : Bool := x.c0.isOne && x.c1.isZero && x.c2.isZero

/-- `fp6::isZero` (`src/fp.cpp:889-892`). -/
def isZero (x : Fp6 K) : Bool := x.c0.isZero && x.c1.isZero && x.c2.isZero

/-- `fp6::equal` (`src/fp.cpp:894-897`). -/
def equal (x e : Fp6 K) : Bool := x.c0.equal e.c0 && x.c1.equal e.c1 && x.c2.equal e.c2

/-- `fp6::add`, `fp6::addAssign` (`src/fp.cpp:899-911`). -/
def add (x e : Fp6 K) : Fp6 K := ⟨x.c0.add e.c0, x.c1.add e.c1, x.c2.add e.c2⟩

/-- `fp6::dbl`, `fp6::doubleAssign` (`src/fp.cpp:913-925`). -/
def dbl (x : Fp6 K) : Fp6 K := ⟨x.c0.dbl, x.c1.dbl, x.c2.dbl⟩

/-- `fp6::subtract`, `fp6::subtractAssign` (`src/fp.cpp:927-939`). -/
def sub (x e : Fp6 K) : Fp6 K := ⟨x.c0.sub e.c0, x.c1.sub e.c1, x.c2.sub e.c2⟩

/-- `fp6::negate` (`src/fp.cpp:941-948`). -/
def neg (x : Fp6 K) : Fp6 K := ⟨x.c0.neg, x.c1.neg, x.c2.neg⟩

/-- `fp6::multiply`, `fp6::multiplyAssign` (`src/fp.cpp:950-984`). -/
def mul (x e : Fp6 K) : Fp6 K :=
  let t0 := x.c0.mul e.c0
  let t1 := x.c1.mul e.c1
  let t2 := x.c2.mul e.c2
  let t3 := x.c1.add x.c2
  let t4 := e.c1.add e.c2
  let t3 := t3.mul t4
  let t4 := t1.add t2
  let t3 := t3.sub t4
  let t3 := t3.mulByNonResidue
  let t5 := t0.add t3
  let t3 := x.c0.add x.c1
  let t4 := e.c0.add e.c1
  let t3 := t3.mul t4
  let t4 := t0.add t1
  let t3 := t3.sub t4
  let t4 := t2.mulByNonResidue
  let c1 := t3.add t4
  let t3 := x.c0.add x.c2
  let t4 := e.c0.add e.c2
  let t3 := t3.mul t4
  let t4 := t0.add t2
  let t3 := t3.sub t4
  let c2 := t1.add t3
  ⟨t5, c1, c2⟩

/-- `fp6::square`, `fp6::squareAssign` (`src/fp.cpp:986-1014`). -/
def sqr (x : Fp6 K) : Fp6 K :=
  let t0 := x.c0.sqr
  let t1 := x.c0.mul x.c1
  let t1 := t1.dbl
  let t2 := x.c0.sub x.c1
  let t2 := t2.add x.c2
  let t2 := t2.sqr
  let t3 := x.c1.mul x.c2
  let t3 := t3.dbl
  let t4 := x.c2.sqr
  let t5 := t3.mulByNonResidue
  let c0 := t0.add t5
  let t5 := t4.mulByNonResidue
  let c1 := t1.add t5
  let t1 := t1.add t2
  let t1 := t1.add t3
  let t0 := t0.add t4
  let c2 := t1.sub t0
  ⟨c0, c1, c2⟩

/-- `fp6::mulBy01Assign` (`src/fp.cpp:1016-1035`). -/
def mulBy01Assign (x : Fp6 K) (e0 e1 : Fp2 K) : Fp6 K :=
  let t0 := x.c0.mul e0
  let t1 := x.c1.mul e1
  let t5 := x.c1.add x.c2
  let t2 := e1.mul t5
  let t2 := t2.sub t1
  let t2 := t2.mulByNonResidue
  let t5 := x.c0.add x.c2
  let t3 := e0.mul t5
  let t3 := t3.sub t0
  let c2 := t3.add t1
  let t4 := e0.add e1
  let t5 := x.c0.add x.c1
  let t4 := t4.mul t5
  let t4 := t4.sub t0
  let c1 := t4.sub t1
  let c0 := t2.add t0
  ⟨c0, c1, c2⟩

/-- `fp6::mulBy01` (`src/fp.cpp:1037-1058`). -/
def mulBy01 (x : Fp6 K) (e0 e1 : Fp2 K) : Fp6 K :=
  let t0 := x.c0.mul e0
  let t1 := x.c1.mul e1
  let t2 := x.c1.add x.c2
  let t2 := t2.mul e1
  let t2 := t2.sub t1
  let t2 := t2.mulByNonResidue
  let t3 := x.c0.add x.c2
  let t3 := t3.mul e0
  let t3 := t3.sub t0
  let c2 := t3.add t1
  let t4 := e0.add e1
  let t3 := x.c0.add x.c1
  let t4 := t4.mul t3
  let t4 := t4.sub t0
  let c1 := t4.sub t1
  let c0 := t2.add t0
  ⟨c0, c1, c2⟩

/-- `fp6::mulBy1` (`src/fp.cpp:1060-1069`). -/
def mulBy1 (x : Fp6 K) (e1 : Fp2 K) : Fp6 K :=
  let t := x.c2.mul e1
  let c2 := x.c1.mul e1
  let c1 := x.c0.mul e1
  let c0 := t.mulByNonResidue
  ⟨c0, c1, c2⟩

/-- `fp6::mulByNonResidue` (`src/fp.cpp:1071-1078`). -/
def mulByNonResidue (x : Fp6 K) : Fp6 K := ⟨x.c2.mulByNonResidue, x.c0, x.c1⟩

/-- `fp6::mulByBaseField` (`src/fp.cpp:1080-1087`). -/
def mulByBaseField (x : Fp6 K) (e : Fp2 K) : Fp6 K := ⟨x.c0.mul e, x.c1.mul e, x.c2.mul e⟩

/-- `fp6::inverse` (`src/fp.cpp:1089-1115`). -/
def inv (x : Fp6 K) : Fp6 K :=
  let t0 := x.c0.sqr
  let t1 := x.c1.mul x.c2
  let t1 := t1.mulByNonResidue
  let t0 := t0.sub t1
  let t1 := x.c1.sqr
  let t2 := x.c0.mul x.c2
  let t1 := t1.sub t2
  let t2 := x.c2.sqr
  let t2 := t2.mulByNonResidue
  let t3 := x.c0.mul x.c1
  let t2 := t2.sub t3
  let t3 := x.c2.mul t2
  let t4 := x.c1.mul t1
  let t3 := t3.add t4
  let t3 := t3.mulByNonResidue
  let t4 := x.c0.mul t0
  let t3 := t3.add t4
  let t3 := t3.inv
  ⟨t0.mul t3, t2.mul t3, t1.mul t3⟩

/-- The member functions of `fp6` (`include/bls12-381/fp.hpp:174-221`). -/
instance : Ops (Fp6 K) where
  zero := zero
  one := one
  add := add
  sub := sub
  neg := neg
  dbl := dbl
  mul := mul
  sqr := sqr
  inv := inv
  isZero := isZero
  isOne := isOne
  equal := equal

/-- Placeholder for `getD` on the 6-entry tables; never reached, the index is `power % 6`
(`src/fp.cpp:1138-1139`, `:1168-1169`). -/
def zero2 : Fp2 K := Fp2.zero

/-- `fp6::frobeniusCoeffs61` (`src/fp.cpp:1175-1200`). Words of the entries `(c0, c1)`. -/
def frobeniusCoeffs61W : List (Fp × Fp) := [
  (⟨0x760900000002fffd, 0xebf4000bc40c0002, 0x5f48985753c758ba,
    0x77ce585370525745, 0x5c071a97a256ec6d, 0x15f65ec3fa80e493⟩, ⟨0, 0, 0, 0, 0, 0⟩),
  (⟨0, 0, 0, 0, 0, 0⟩, ⟨0xcd03c9e48671f071, 0x5dab22461fcda5d2, 0x587042afd3851b95,
    0x8eb60ebe01bacb9e, 0x03f97d6e83d050d2, 0x18f0206554638741⟩),
  (⟨0x30f1361b798a64e8, 0xf3b8ddab7ece5a2a, 0x16a8ca3ac61577f7,
    0xc26a2ff874fd029b, 0x3636b76660701c6e, 0x051ba4ab241b6160⟩, ⟨0, 0, 0, 0, 0, 0⟩),
  (⟨0, 0, 0, 0, 0, 0⟩, ⟨0x760900000002fffd, 0xebf4000bc40c0002, 0x5f48985753c758ba,
    0x77ce585370525745, 0x5c071a97a256ec6d, 0x15f65ec3fa80e493⟩),
  (⟨0xcd03c9e48671f071, 0x5dab22461fcda5d2, 0x587042afd3851b95,
    0x8eb60ebe01bacb9e, 0x03f97d6e83d050d2, 0x18f0206554638741⟩, ⟨0, 0, 0, 0, 0, 0⟩),
  (⟨0, 0, 0, 0, 0, 0⟩, ⟨0x30f1361b798a64e8, 0xf3b8ddab7ece5a2a, 0x16a8ca3ac61577f7,
    0xc26a2ff874fd029b, 0x3636b76660701c6e, 0x051ba4ab241b6160⟩)]

/-- `fp6::frobeniusCoeffs61` (`src/fp.cpp:1175-1200`). -/
def frobeniusCoeffs61 : List (Fp2 K) := frobeniusCoeffs61W.map fun e => ⟨const e.1, const e.2⟩

/-- `fp6::frobeniusCoeffs62` (`src/fp.cpp:1202-1227`). Words of the entries `(c0, c1)`. -/
def frobeniusCoeffs62W : List (Fp × Fp) := [
  (⟨0x760900000002fffd, 0xebf4000bc40c0002, 0x5f48985753c758ba,
    0x77ce585370525745, 0x5c071a97a256ec6d, 0x15f65ec3fa80e493⟩, ⟨0, 0, 0, 0, 0, 0⟩),
  (⟨0x890dc9e4867545c3, 0x2af322533285a5d5, 0x50880866309b7e2c,
    0xa20d1b8c7e881024, 0x14e4f04fe2db9068, 0x14e56d3f1564853a⟩, ⟨0, 0, 0, 0, 0, 0⟩),
  (⟨0xcd03c9e48671f071, 0x5dab22461fcda5d2, 0x587042afd3851b95,
    0x8eb60ebe01bacb9e, 0x03f97d6e83d050d2, 0x18f0206554638741⟩, ⟨0, 0, 0, 0, 0, 0⟩),
  (⟨0x43f5fffffffcaaae, 0x32b7fff2ed47fffd, 0x07e83a49a2e99d69,
    0xeca8f3318332bb7a, 0xef148d1ea0f4c069, 0x040ab3263eff0206⟩, ⟨0, 0, 0, 0, 0, 0⟩),
  (⟨0x30f1361b798a64e8, 0xf3b8ddab7ece5a2a, 0x16a8ca3ac61577f7,
    0xc26a2ff874fd029b, 0x3636b76660701c6e, 0x051ba4ab241b6160⟩, ⟨0, 0, 0, 0, 0, 0⟩),
  (⟨0xecfb361b798dba3a, 0xc100ddb891865a2c, 0x0ec08ff1232bda8e,
    0xd5c13cc6f1ca4721, 0x47222a47bf7b5c04, 0x0110f184e51c5f59⟩, ⟨0, 0, 0, 0, 0, 0⟩)]

/-- `fp6::frobeniusCoeffs62` (`src/fp.cpp:1202-1227`). -/
def frobeniusCoeffs62 : List (Fp2 K) := frobeniusCoeffs62W.map fun e => ⟨const e.1, const e.2⟩

/-- `fp6::frobeniusMap` (`src/fp.cpp:1117-1144`). In case 3 the code writes `c.c0.c0` and `c.c1.c1`, so that
the result differs from `frobeniusMapAssign`. -/
def frobeniusMap (x : Fp6 K) (power : Nat) : Fp6 K :=
  let c : Fp6 K := ⟨x.c0.frobeniusMap power, x.c1.frobeniusMap power, x.c2.frobeniusMap power⟩
  match power % 6 with
  | 0 => c
  | 3 => ⟨⟨Ops.neg x.c1.c1, c.c0.c1⟩, ⟨c.c1.c0, x.c1.c0⟩, x.c2.neg⟩
  | i => ⟨c.c0, c.c1.mul (frobeniusCoeffs61.getD i zero2), c.c2.mul (frobeniusCoeffs62.getD i zero2)⟩

/-- `fp6::frobeniusMapAssign` (`src/fp.cpp:1146-1173`). -/
def frobeniusMapAssign (x : Fp6 K) (power : Nat) : Fp6 K :=
  let c : Fp6 K := ⟨x.c0.frobeniusMap power, x.c1.frobeniusMap power, x.c2.frobeniusMap power⟩
  match power % 6 with
  | 0 => c
  | 3 => ⟨c.c0, ⟨Ops.neg c.c1.c1, c.c1.c0⟩, c.c2.neg⟩
  | i => ⟨c.c0, c.c1.mul (frobeniusCoeffs61.getD i zero2), c.c2.mul (frobeniusCoeffs62.getD i zero2)⟩

end Fp6

/-! ## fp12 -/

namespace Fp12

/-- `fp12::zero` (`src/fp.cpp:1283-1286`). -/
def zero : Fp12 K := ⟨Fp6.zero, Fp6.zero⟩

/-- `fp12::one` (`src/fp.cpp:1288-1291`). -/
def one : Fp12 K := ⟨Fp6.one, Fp6.zero⟩

/-- `fp12::isOne` (`src/fp.cpp:1293-1296`). -/
def isOne (x : Fp12 K) : Bool := x.c0.isOne && x.c1.isZero

/-- `fp12::isZero` (`src/fp.cpp:1298-1301`). -/
def isZero (x : Fp12 K) : Bool := x.c0.isZero && x.c1.isZero

/-- `fp12::equal` (`src/fp.cpp:1309-1312`). -/
def equal (x e : Fp12 K) : Bool := x.c0.equal e.c0 && x.c1.equal e.c1

/-- `fp12::add`, `fp12::addAssign` (`src/fp.cpp:1314-1324`). -/
def add (x e : Fp12 K) : Fp12 K := ⟨x.c0.add e.c0, x.c1.add e.c1⟩

/-- `fp12::dbl`, `fp12::doubleAssign` (`src/fp.cpp:1326-1336`). -/
def dbl (x : Fp12 K) : Fp12 K := ⟨x.c0.dbl, x.c1.dbl⟩

/-- `fp12::subtract`, `fp12::subtractAssign` (`src/fp.cpp:1338-1348`). -/
def sub (x e : Fp12 K) : Fp12 K := ⟨x.c0.sub e.c0, x.c1.sub e.c1⟩

/-- `fp12::negate` (`src/fp.cpp:1350-1356`). -/
def neg (x : Fp12 K) : Fp12 K := ⟨x.c0.neg, x.c1.neg⟩

/-- `fp12::conjugate` (`src/fp.cpp:1358-1364`). -/
def conjugate (x : Fp12 K) : Fp12 K := ⟨x.c0, x.c1.neg⟩

/-- `fp12::square`, `fp12::squareAssign` (`src/fp.cpp:1366-1385`). -/
def sqr (x : Fp12 K) : Fp12 K :=
  let t0 := x.c0.add x.c1
  let t2 := x.c0.mul x.c1
  let t1 := x.c1.mulByNonResidue
  let t1 := t1.add x.c0
  let t3 := t2.mulByNonResidue
  let t0 := t0.mul t1
  let t0 := t0.sub t2
  let c0 := t0.sub t3
  let c1 := t2.dbl
  ⟨c0, c1⟩

/-- `fp12::fp4Square` (`src/fp.cpp:1442-1455`). -/
def fp4Square (e0 e1 : Fp2 K) : Fp2 K × Fp2 K :=
  let t0 := e0.sqr
  let t1 := e1.sqr
  let t2 := t1.mulByNonResidue
  let c0 := t2.add t0
  let t2 := e0.add e1
  let t2 := t2.sqr
  let t2 := t2.sub t0
  let c1 := t2.sub t1
  (c0, c1)

/-- `fp12::cyclotomicSquare`, `fp12::cyclotomicSquareAssign` (`src/fp.cpp:1387-1418`); `xij` is the current value of
the member `ci.cj`. -/
def cyclotomicSquare (x : Fp12 K) : Fp12 K :=
  let x00 := x.c0.c0
  let x01 := x.c0.c1
  let x02 := x.c0.c2
  let x10 := x.c1.c0
  let x11 := x.c1.c1
  let x12 := x.c1.c2
  let r := fp4Square x00 x11
  let t3 := r.1
  let t4 := r.2
  let t2 := t3.sub x00
  let t2 := t2.dbl
  let x00 := t2.add t3
  let t2 := t4.add x11
  let t2 := t2.dbl
  let x11 := t2.add t4
  let r := fp4Square x10 x02
  let t3 := r.1
  let t4 := r.2
  let r := fp4Square x01 x12
  let t5 := r.1
  let t6 := r.2
  let t2 := t3.sub x01
  let t2 := t2.dbl
  let x01 := t2.add t3
  let t2 := t4.add x12
  let t2 := t2.dbl
  let x12 := t2.add t4
  let t3 := t6.mulByNonResidue
  let t2 := t3.add x10
  let t2 := t2.dbl
  let x10 := t2.add t3
  let t2 := t5.sub x02
  let t2 := t2.dbl
  let x02 := t2.add t5
  ⟨⟨x00, x01, x02⟩, ⟨x10, x11, x12⟩⟩

/-- `fp12::multiply`, `fp12::multiplyAssign` (`src/fp.cpp:1420-1440`). -/
def mul (x e : Fp12 K) : Fp12 K :=
  let t1 := x.c0.mul e.c0
  let t2 := x.c1.mul e.c1
  let t0 := t1.add t2
  let t2 := t2.mulByNonResidue
  let t3 := t1.add t2
  let t1 := x.c0.add x.c1
  let t2 := e.c0.add e.c1
  let t1 := t1.mul t2
  ⟨t3, t1.sub t0⟩

/-- `fp12::inverse` (`src/fp.cpp:1457-1470`). -/
def inv (x : Fp12 K) : Fp12 K :=
  let t0 := x.c0.sqr
  let t1 := x.c1.sqr
  let t1 := t1.mulByNonResidue
  let t1 := t0.sub t1
  let t0 := t1.inv
  let c0 := x.c0.mul t0
  let t0 := t0.mul x.c1
  ⟨c0, t0.neg⟩

/-- `fp12::mulBy014Assign` (`src/fp.cpp:1472-1485`). -/
def mulBy014 (x : Fp12 K) (e0 e1 e4 : Fp2 K) : Fp12 K :=
  let t0 := x.c0.mulBy01 e0 e1
  let t1 := x.c1.mulBy1 e4
  let s := e1.add e4
  let t2 := x.c1.add x.c0
  let t2 := t2.mulBy01Assign e0 s
  let t2 := t2.sub t0
  let c1 := t2.sub t1
  let t1 := t1.mulByNonResidue
  let c0 := t1.add t0
  ⟨c0, c1⟩

/-- The member functions of `fp12` (`include/bls12-381/fp.hpp:225-272`). -/
instance : Ops (Fp12 K) where
  zero := zero
  one := one
  add := add
  sub := sub
  neg := neg
  dbl := dbl
  mul := mul
  sqr := sqr
  inv := inv
  isZero := isZero
  isOne := isOne
  equal := equal

/-- `fp12::frobeniusCoeffs12` (`src/fp.cpp:1535-1584`). Words of the entries `(c0, c1)`. -/
def frobeniusCoeffs12W : List (Fp × Fp) := [
  (⟨0x760900000002fffd, 0xebf4000bc40c0002, 0x5f48985753c758ba,
    0x77ce585370525745, 0x5c071a97a256ec6d, 0x15f65ec3fa80e493⟩, ⟨0, 0, 0, 0, 0, 0⟩),
  (⟨0x07089552b319d465, 0xc6695f92b50a8313, 0x97e83cccd117228f,
    0xa35baecab2dc29ee, 0x1ce393ea5daace4d, 0x08f2220fb0fb66eb⟩, ⟨0xb2f66aad4ce5d646, 0x5842a06bfc497cec, 0xcf4895d42599d394,
    0xc11b9cba40a8e8d0, 0x2e3813cbe5a0de89, 0x110eefda88847faf⟩),
  (⟨0xecfb361b798dba3a, 0xc100ddb891865a2c, 0x0ec08ff1232bda8e,
    0xd5c13cc6f1ca4721, 0x47222a47bf7b5c04, 0x0110f184e51c5f59⟩, ⟨0, 0, 0, 0, 0, 0⟩),
  (⟨0x3e2f585da55c9ad1, 0x4294213d86c18183, 0x382844c88b623732,
    0x92ad2afd19103e18, 0x1d794e4fac7cf0b9, 0x0bd592fc7d825ec8⟩, ⟨0x7bcfa7a25aa30fda, 0xdc17dec12a927e7c, 0x2f088dd86b4ebef1,
    0xd1ca2087da74d4a7, 0x2da2596696cebc1d, 0x0e2b7eedbbfd87d2⟩),
  (⟨0x30f1361b798a64e8, 0xf3b8ddab7ece5a2a, 0x16a8ca3ac61577f7,
    0xc26a2ff874fd029b, 0x3636b76660701c6e, 0x051ba4ab241b6160⟩, ⟨0, 0, 0, 0, 0, 0⟩),
  (⟨0x3726c30af242c66c, 0x7c2ac1aad1b6fe70, 0xa04007fbba4b14a2,
    0xef517c3266341429, 0x0095ba654ed2226b, 0x02e370eccc86f7dd⟩, ⟨0x82d83cf50dbce43f, 0xa2813e53df9d018f, 0xc6f0caa53c65e181,
    0x7525cf528d50fe95, 0x4a85ed50f4798a6b, 0x171da0fd6cf8eebd⟩),
  (⟨0x43f5fffffffcaaae, 0x32b7fff2ed47fffd, 0x07e83a49a2e99d69,
    0xeca8f3318332bb7a, 0xef148d1ea0f4c069, 0x040ab3263eff0206⟩, ⟨0, 0, 0, 0, 0, 0⟩),
  (⟨0xb2f66aad4ce5d646, 0x5842a06bfc497cec, 0xcf4895d42599d394,
    0xc11b9cba40a8e8d0, 0x2e3813cbe5a0de89, 0x110eefda88847faf⟩, ⟨0x07089552b319d465, 0xc6695f92b50a8313, 0x97e83cccd117228f,
    0xa35baecab2dc29ee, 0x1ce393ea5daace4d, 0x08f2220fb0fb66eb⟩),
  (⟨0xcd03c9e48671f071, 0x5dab22461fcda5d2, 0x587042afd3851b95,
    0x8eb60ebe01bacb9e, 0x03f97d6e83d050d2, 0x18f0206554638741⟩, ⟨0, 0, 0, 0, 0, 0⟩),
  (⟨0x7bcfa7a25aa30fda, 0xdc17dec12a927e7c, 0x2f088dd86b4ebef1,
    0xd1ca2087da74d4a7, 0x2da2596696cebc1d, 0x0e2b7eedbbfd87d2⟩, ⟨0x3e2f585da55c9ad1, 0x4294213d86c18183, 0x382844c88b623732,
    0x92ad2afd19103e18, 0x1d794e4fac7cf0b9, 0x0bd592fc7d825ec8⟩),
  (⟨0x890dc9e4867545c3, 0x2af322533285a5d5, 0x50880866309b7e2c,
    0xa20d1b8c7e881024, 0x14e4f04fe2db9068, 0x14e56d3f1564853a⟩, ⟨0, 0, 0, 0, 0, 0⟩),
  (⟨0x82d83cf50dbce43f, 0xa2813e53df9d018f, 0xc6f0caa53c65e181,
    0x7525cf528d50fe95, 0x4a85ed50f4798a6b, 0x171da0fd6cf8eebd⟩, ⟨0x3726c30af242c66c, 0x7c2ac1aad1b6fe70, 0xa04007fbba4b14a2,
    0xef517c3266341429, 0x0095ba654ed2226b, 0x02e370eccc86f7dd⟩)]

/-- `fp12::frobeniusCoeffs12` (`src/fp.cpp:1535-1584`). -/
def frobeniusCoeffs12 : List (Fp2 K) := frobeniusCoeffs12W.map fun e => ⟨const e.1, const e.2⟩

/-- `fp12::frobeniusMap` (`src/fp.cpp:1487-1510`). `none`: `frobeniusCoeffs12[power]` read past its 12 entries
(undefined behaviour). -/
def frobeniusMap (x : Fp12 K) (power : Nat) : Option (Fp12 K) :=
  let c : Fp12 K := ⟨x.c0.frobeniusMap power, x.c1.frobeniusMap power⟩
  if power = 0 then some c
  else if power = 6 then some ⟨c.c0, c.c1.neg⟩
  else match frobeniusCoeffs12[power]? with
    | some k => some ⟨c.c0, c.c1.mulByBaseField k⟩
    | none => none

/-- `fp12::frobeniusMapAssign` (`src/fp.cpp:1512-1533`). -/
def frobeniusMapAssign (x : Fp12 K) (power : Nat) : Option (Fp12 K) :=
  let c : Fp12 K := ⟨x.c0.frobeniusMapAssign power, x.c1.frobeniusMapAssign power⟩
  if power = 0 then some c
  else if power = 6 then some ⟨c.c0, c.c1.neg⟩
  else match frobeniusCoeffs12[power]? with
    | some k => some ⟨c.c0, c.c1.mulByBaseField k⟩
    | none => none

/-- The loop of `cyclotomicExp` (`include/bls12-381/scalar.hpp:319-326`), as `Ops.expLoop` with `cyclotomicSquare`. -/
def cycExpLoop (x : Fp12 K) (s : List UInt64) : Nat → Fp12 K → Fp12 K
  | 0, z => z
  | n + 1, z =>
    let z := cyclotomicSquare z
    let z := if Scalar.bit s n then mul z x else z
    cycExpLoop x s n z

/-- `fp12::cyclotomicExp` (`include/bls12-381/scalar.hpp:314-328`). -/
def cyclotomicExp (x : Fp12 K) (s : List UInt64) : Fp12 K := cycExpLoop x s (Scalar.bitLength s) one

/-- `fp12::isGtValid` (`src/fp.cpp:1303-1307`). -/
def isGtValid (x : Fp12 K) : Bool := (Ops.exp x FpC.Q).isOne

end Fp12

end Bls
