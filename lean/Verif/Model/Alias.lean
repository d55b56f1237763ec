import Verif.Model.Portable
import Verif.Model.Group

/-!
# Functions that write through a pointer or reference

The other model files return new values. Here the same functions act on a heap, so that the destination may be the same
object as an operand. A heap maps objects (any type `L`) to their contents; two C++ objects of one type are the same or
disjoint. A member written through `this` or `z` is written at once, later statements read the new content. Local
arrays are let-bindings. Calls of functions of a lower level are atomic: these have been treated on their own level.
-/

namespace Bls

/-- Objects and their contents: what the `fp*` arguments of `src/arithmetic.cpp:12-428` and `this` of the member functions
(`src/fp.cpp:107-172`) point to. -/
abbrev Heap (L T : Type) := L → T

/-- The heap after the object `o` has been given the content `v`, as by `z->d[0] = …` (`src/arithmetic.cpp:16`). -/
def Heap.put {L T : Type} [DecidableEq L] (m : Heap L T) (o : L) (v : T) : Heap L T := fun k => if k = o then v else m k

/-! ## The portable routines on `fp` -/

namespace Portable.Mem

variable {L : Type} [DecidableEq L]

/-- The six `Add64` calls of `_add`, `_ladd` (`src/arithmetic.cpp:16-21`, `:40-45`), `_double`, `_ldouble` with `y = x`
(`src/arithmetic.cpp:52-57`, `:77-82`). -/
def addChain (z x y : L) (m : Heap L Fp) : Heap L Fp × UInt64 :=
  let c : UInt64 := 0
  let r := add64 (m x).d0 (m y).d0 c
  let m := m.put z { m z with d0 := r.1 }
  let c := r.2
  let r := add64 (m x).d1 (m y).d1 c
  let m := m.put z { m z with d1 := r.1 }
  let c := r.2
  let r := add64 (m x).d2 (m y).d2 c
  let m := m.put z { m z with d2 := r.1 }
  let c := r.2
  let r := add64 (m x).d3 (m y).d3 c
  let m := m.put z { m z with d3 := r.1 }
  let c := r.2
  let r := add64 (m x).d4 (m y).d4 c
  let m := m.put z { m z with d4 := r.1 }
  let c := r.2
  let r := add64 (m x).d5 (m y).d5 c
  let m := m.put z { m z with d5 := r.1 }
  let c := r.2
  (m, c)

/-- The six `Sub64` calls of `_subtract`, `_lsubtract` (`src/arithmetic.cpp:88-93`, `:109-114`); the last borrow. -/
def subChain (z x y : L) (m : Heap L Fp) : Heap L Fp × UInt64 :=
  let c : UInt64 := 0
  let r := sub64 (m x).d0 (m y).d0 c
  let m := m.put z { m z with d0 := r.1 }
  let c := r.2
  let r := sub64 (m x).d1 (m y).d1 c
  let m := m.put z { m z with d1 := r.1 }
  let c := r.2
  let r := sub64 (m x).d2 (m y).d2 c
  let m := m.put z { m z with d2 := r.1 }
  let c := r.2
  let r := sub64 (m x).d3 (m y).d3 c
  let m := m.put z { m z with d3 := r.1 }
  let c := r.2
  let r := sub64 (m x).d4 (m y).d4 c
  let m := m.put z { m z with d4 := r.1 }
  let c := r.2
  let r := sub64 (m x).d5 (m y).d5 c
  let m := m.put z { m z with d5 := r.1 }
  let c := r.2
  (m, c)

/-- The `Sub64` calls of the final reduction (`src/arithmetic.cpp:28-33`, `:64-69`, `:309-314`, `:421-426`). -/
def subModulus (z : L) (m : Heap L Fp) : Heap L Fp × UInt64 :=
  let c : UInt64 := 0
  let r := sub64 (m z).d0 MODULUS.d0 c
  let m := m.put z { m z with d0 := r.1 }
  let c := r.2
  let r := sub64 (m z).d1 MODULUS.d1 c
  let m := m.put z { m z with d1 := r.1 }
  let c := r.2
  let r := sub64 (m z).d2 MODULUS.d2 c
  let m := m.put z { m z with d2 := r.1 }
  let c := r.2
  let r := sub64 (m z).d3 MODULUS.d3 c
  let m := m.put z { m z with d3 := r.1 }
  let c := r.2
  let r := sub64 (m z).d4 MODULUS.d4 c
  let m := m.put z { m z with d4 := r.1 }
  let c := r.2
  let r := sub64 (m z).d5 MODULUS.d5 c
  let m := m.put z { m z with d5 := r.1 }
  let c := r.2
  (m, c)

/-- The `Add64` calls after a borrow in `_subtract` (`src/arithmetic.cpp:97-102`). -/
def addModulus (z : L) (m : Heap L Fp) : Heap L Fp × UInt64 :=
  let c : UInt64 := 0
  let r := add64 (m z).d0 MODULUS.d0 c
  let m := m.put z { m z with d0 := r.1 }
  let c := r.2
  let r := add64 (m z).d1 MODULUS.d1 c
  let m := m.put z { m z with d1 := r.1 }
  let c := r.2
  let r := add64 (m z).d2 MODULUS.d2 c
  let m := m.put z { m z with d2 := r.1 }
  let c := r.2
  let r := add64 (m z).d3 MODULUS.d3 c
  let m := m.put z { m z with d3 := r.1 }
  let c := r.2
  let r := add64 (m z).d4 MODULUS.d4 c
  let m := m.put z { m z with d4 := r.1 }
  let c := r.2
  let r := add64 (m z).d5 MODULUS.d5 c
  let m := m.put z { m z with d5 := r.1 }
  let c := r.2
  (m, c)

/-- The `Sub64` calls of `_negate` (`src/arithmetic.cpp:138-143`). -/
def modulusSub (z x : L) (m : Heap L Fp) : Heap L Fp × UInt64 :=
  let c : UInt64 := 0
  let r := sub64 MODULUS.d0 (m x).d0 c
  let m := m.put z { m z with d0 := r.1 }
  let c := r.2
  let r := sub64 MODULUS.d1 (m x).d1 c
  let m := m.put z { m z with d1 := r.1 }
  let c := r.2
  let r := sub64 MODULUS.d2 (m x).d2 c
  let m := m.put z { m z with d2 := r.1 }
  let c := r.2
  let r := sub64 MODULUS.d3 (m x).d3 c
  let m := m.put z { m z with d3 := r.1 }
  let c := r.2
  let r := sub64 MODULUS.d4 (m x).d4 c
  let m := m.put z { m z with d4 := r.1 }
  let c := r.2
  let r := sub64 MODULUS.d5 (m x).d5 c
  let m := m.put z { m z with d5 := r.1 }
  let c := r.2
  (m, c)

/-- The conditional subtraction of the modulus (`src/arithmetic.cpp:25-34`, `:61-70`, `:306-315`, `:418-427`). -/
def condSub (z : L) (m : Heap L Fp) : Heap L Fp := if !ltModulus (m z) then (subModulus z m).1 else m

/-- `_add` (`src/arithmetic.cpp:12-35`). -/
def add (z x y : L) (m : Heap L Fp) : Heap L Fp := condSub z (addChain z x y m).1

/-- `_ladd` (`src/arithmetic.cpp:37-46`). -/
def ladd (z x y : L) (m : Heap L Fp) : Heap L Fp := (addChain z x y m).1

/-- `_double` (`src/arithmetic.cpp:48-71`). -/
def double (z x : L) (m : Heap L Fp) : Heap L Fp := condSub z (addChain z x x m).1

/-- `_ldouble` (`src/arithmetic.cpp:73-83`). -/
def ldouble (z x : L) (m : Heap L Fp) : Heap L Fp := (addChain z x x m).1

/-- `_subtract` (`src/arithmetic.cpp:85-104`). -/
def subtract (z x y : L) (m : Heap L Fp) : Heap L Fp :=
  let r := subChain z x y m
  if r.2 != 0 then (addModulus z r.1).1 else r.1

/-- `_lsubtract` (`src/arithmetic.cpp:106-115`). -/
def lsubtract (z x y : L) (m : Heap L Fp) : Heap L Fp := (subChain z x y m).1

/-- `_negate` (`src/arithmetic.cpp:130-144`). -/
def negate (z x : L) (m : Heap L Fp) : Heap L Fp := if (m x).isZero then m.put z (m x) else (modulusSub z x m).1

/-- Round 5 of `_multiply` (`src/arithmetic.cpp:286-302`), which writes `z` while `y` is still read. -/
def mulRound5 (z x y : L) (t : Fp) (m : Heap L Fp) : Heap L Fp :=
  let v := (m x).d5
  let c := madd1 v (m y).d0 t.d0
  let k := c.2 * INP
  let c2 := madd0 k MODULUS.d0 c.2
  let c := madd2 v (m y).d1 c.1 t.d1
  let b := madd2 k MODULUS.d1 c2 c.2
  let m := m.put z { m z with d0 := b.2 }
  let c := madd2 v (m y).d2 c.1 t.d2
  let b := madd2 k MODULUS.d2 b.1 c.2
  let m := m.put z { m z with d1 := b.2 }
  let c := madd2 v (m y).d3 c.1 t.d3
  let b := madd2 k MODULUS.d3 b.1 c.2
  let m := m.put z { m z with d2 := b.2 }
  let c := madd2 v (m y).d4 c.1 t.d4
  let b := madd2 k MODULUS.d4 b.1 c.2
  let m := m.put z { m z with d3 := b.2 }
  let c := madd2 v (m y).d5 c.1 t.d5
  let b := madd3 k MODULUS.d5 c.2 b.1 c.1
  let m := m.put z { m z with d5 := b.1 }
  m.put z { m z with d4 := b.2 }

/-- `_multiply` (`src/arithmetic.cpp:197-316`); rounds 0 to 4 write only the local array. -/
def multiply (z x y : L) (m : Heap L Fp) : Heap L Fp :=
  let t := mulRound0 (m x).d0 (m y)
  let t := mulRound (m x).d1 (m y) t
  let t := mulRound (m x).d2 (m y) t
  let t := mulRound (m x).d3 (m y) t
  let t := mulRound (m x).d4 (m y) t
  condSub z (mulRound5 z x y t m)

/-- Round 5 of `_square` (`src/arithmetic.cpp:404-414`), which writes `z` before the last read of `x`. -/
def sqRound5 (z x : L) (p : Fp) (m : Heap L Fp) : Heap L Fp :=
  let k := p.d0 * INP
  let C := madd0 k MODULUS.d0 p.d0
  let r := madd2 k MODULUS.d1 p.d1 C
  let m := m.put z { m z with d0 := r.2 }
  let r := madd2 k MODULUS.d2 p.d2 r.1
  let m := m.put z { m z with d1 := r.2 }
  let r := madd2 k MODULUS.d3 p.d3 r.1
  let m := m.put z { m z with d2 := r.2 }
  let r := madd2 k MODULUS.d4 p.d4 r.1
  let m := m.put z { m z with d3 := r.2 }
  let w := madd1 (m x).d5 (m x).d5 p.d5
  let r := madd3 k MODULUS.d5 w.2 r.1 w.1
  let m := m.put z { m z with d5 := r.1 }
  m.put z { m z with d4 := r.2 }

/-- `_square` (`src/arithmetic.cpp:325-428`); rounds 0 to 4 write only the local array. -/
def square (z x : L) (m : Heap L Fp) : Heap L Fp :=
  let t := sqRound0 (m x)
  let t := sqRound1 (m x) t
  let t := sqRound2 (m x) t
  let t := sqRound3 (m x) t
  let t := sqRound4 (m x) t
  condSub z (sqRound5 z x t m)

end Portable.Mem

variable {K L : Type} [FpOps K] [DecidableEq L]

/-! ## fp2 -/

namespace Fp2.Mem

/-- `fp2::addAssign` (`src/fp.cpp:552-556`). -/
def addAssign (o e : L) (m : Heap L (Fp2 K)) : Heap L (Fp2 K) :=
  let m := m.put o { m o with c0 := Ops.add (m o).c0 (m e).c0 }
  m.put o { m o with c1 := Ops.add (m o).c1 (m e).c1 }

/-- `fp2::doubleAssign` (`src/fp.cpp:565-569`). -/
def doubleAssign (o : L) (m : Heap L (Fp2 K)) : Heap L (Fp2 K) :=
  let m := m.put o { m o with c0 := Ops.dbl (m o).c0 }
  m.put o { m o with c1 := Ops.dbl (m o).c1 }

/-- `fp2::subtractAssign` (`src/fp.cpp:578-582`). -/
def subtractAssign (o e : L) (m : Heap L (Fp2 K)) : Heap L (Fp2 K) :=
  let m := m.put o { m o with c0 := Ops.sub (m o).c0 (m e).c0 }
  m.put o { m o with c1 := Ops.sub (m o).c1 (m e).c1 }

/-- `fp2::multiplyAssign` (`src/fp.cpp:607-618`). -/
def multiplyAssign (o e : L) (m : Heap L (Fp2 K)) : Heap L (Fp2 K) :=
  let t1 := Ops.mul (m o).c0 (m e).c0
  let t2 := Ops.mul (m o).c1 (m e).c1
  let t0 := Ops.add (m o).c0 (m o).c1
  let t3 := Ops.add (m e).c0 (m e).c1
  let m := m.put o { m o with c0 := Ops.sub t1 t2 }
  let t1 := Ops.add t1 t2
  let t0 := Ops.mul t0 t3
  m.put o { m o with c1 := Ops.sub t0 t1 }

/-- `fp2::squareAssign` (`src/fp.cpp:627-635`): `c0` is written before `c1` is read. The lazy sums `t[0]`, `t[2]` are part of
`mulLadd`, `mulLdbl`; `t[2]` is formed from the old `c0`. -/
def squareAssign (o : L) (m : Heap L (Fp2 K)) : Heap L (Fp2 K) :=
  let a := (m o).c0
  let t1 := Ops.sub (m o).c0 (m o).c1
  let m := m.put o { m o with c0 := FpOps.mulLadd a (m o).c1 t1 }
  m.put o { m o with c1 := FpOps.mulLdbl a (m o).c1 }

/-- `fp2::frobeniusMapAssign` (`src/fp.cpp:695-701`). -/
def frobeniusMapAssign (o : L) (power : Nat) (m : Heap L (Fp2 K)) : Heap L (Fp2 K) :=
  if power % 2 = 1 then m.put o { m o with c1 := Ops.neg (m o).c1 } else m

/-- `fp2::sqrt` (`src/fp.cpp:703-722`), the result written to `c`; the flag is the second component. -/
def sqrt (o c : L) (m : Heap L (Fp2 K)) : Heap L (Fp2 K) × Bool :=
  let u := m o
  let a1 := Ops.exp (m o) FpC.pMinus3Over4
  let alpha := a1.sqr
  let alpha := alpha.mul (m o)
  let x0 := a1.mul (m o)
  if alpha.equal negativeOne2 then
    let m := m.put c { m c with c0 := Ops.neg x0.c1 }
    (m.put c { m c with c1 := x0.c0 }, true)
  else
    let alpha := alpha.add one
    let alpha := Ops.exp alpha FpC.pMinus1Over2
    let m := m.put c (alpha.mul x0)
    let alpha := (m c).sqr
    (m, alpha.equal u)

end Fp2.Mem

/-- `fp::sqrt` (`src/fp.cpp:325-332`), the result written to `c`; the flag is the second component. -/
def FpC.sqrtMem (o c : L) (m : Heap L K) : Heap L K × Bool :=
  let u := m o
  let m := m.put c (Ops.exp (m o) pPlus1Over4)
  let v := Ops.sqr (m c)
  (m, Ops.equal u v)

/-! ## fp6 -/

namespace Fp6.Mem

/-- `fp6::addAssign` (`src/fp.cpp:906-911`). -/
def addAssign (o e : L) (m : Heap L (Fp6 K)) : Heap L (Fp6 K) :=
  let m := m.put o { m o with c0 := (m o).c0.add (m e).c0 }
  let m := m.put o { m o with c1 := (m o).c1.add (m e).c1 }
  m.put o { m o with c2 := (m o).c2.add (m e).c2 }

/-- `fp6::doubleAssign` (`src/fp.cpp:920-925`). -/
def doubleAssign (o : L) (m : Heap L (Fp6 K)) : Heap L (Fp6 K) :=
  let m := m.put o { m o with c0 := (m o).c0.dbl }
  let m := m.put o { m o with c1 := (m o).c1.dbl }
  m.put o { m o with c2 := (m o).c2.dbl }

/-- `fp6::subtractAssign` (`src/fp.cpp:934-939`). -/
def subtractAssign (o e : L) (m : Heap L (Fp6 K)) : Heap L (Fp6 K) :=
  let m := m.put o { m o with c0 := (m o).c0.sub (m e).c0 }
  let m := m.put o { m o with c1 := (m o).c1.sub (m e).c1 }
  m.put o { m o with c2 := (m o).c2.sub (m e).c2 }

/-- `fp6::multiplyAssign` (`src/fp.cpp:957-984`): `c1` is written while `c0`, `c2` of both operands are still read. -/
def multiplyAssign (o e : L) (m : Heap L (Fp6 K)) : Heap L (Fp6 K) :=
  let t0 := (m o).c0.mul (m e).c0
  let t1 := (m o).c1.mul (m e).c1
  let t2 := (m o).c2.mul (m e).c2
  let t3 := (m o).c1.add (m o).c2
  let t4 := (m e).c1.add (m e).c2
  let t3 := t3.mul t4
  let t4 := t1.add t2
  let t3 := t3.sub t4
  let t3 := t3.mulByNonResidue
  let t5 := t0.add t3
  let t3 := (m o).c0.add (m o).c1
  let t4 := (m e).c0.add (m e).c1
  let t3 := t3.mul t4
  let t4 := t0.add t1
  let t3 := t3.sub t4
  let t4 := t2.mulByNonResidue
  let m := m.put o { m o with c1 := t3.add t4 }
  let t3 := (m o).c0.add (m o).c2
  let t4 := (m e).c0.add (m e).c2
  let t3 := t3.mul t4
  let t4 := t0.add t2
  let t3 := t3.sub t4
  let m := m.put o { m o with c2 := t1.add t3 }
  m.put o { m o with c0 := t5 }

/-- `fp6::squareAssign` (`src/fp.cpp:993-1014`). -/
def squareAssign (o : L) (m : Heap L (Fp6 K)) : Heap L (Fp6 K) :=
  let t0 := (m o).c0.sqr
  let t1 := (m o).c0.mul (m o).c1
  let t1 := t1.dbl
  let t2 := (m o).c0.sub (m o).c1
  let t2 := t2.add (m o).c2
  let t2 := t2.sqr
  let t3 := (m o).c1.mul (m o).c2
  let t3 := t3.dbl
  let t4 := (m o).c2.sqr
  let t5 := t3.mulByNonResidue
  let m := m.put o { m o with c0 := t0.add t5 }
  let t5 := t4.mulByNonResidue
  let m := m.put o { m o with c1 := t1.add t5 }
  let t1 := t1.add t2
  let t1 := t1.add t3
  let t0 := t0.add t4
  m.put o { m o with c2 := t1.sub t0 }

/-- A reference to an `fp2` (arguments in `include/bls12-381/fp.hpp:209-213`) that is a member of an `fp6` object; one that is not a member behaves as a member of an object
of its own. -/
inductive Ref (L : Type) where
  | c0 (o : L)
  | c1 (o : L)
  | c2 (o : L)
deriving DecidableEq

/-- The value that a reference reads, as `e0` in `src/fp.cpp:1016-1035`. -/
def Ref.get {L T : Type} (m : Heap L (Fp6 T)) : Ref L → Fp2 T
  | .c0 o => (m o).c0
  | .c1 o => (m o).c1
  | .c2 o => (m o).c2

/-- `fp6::mulBy01Assign` (`src/fp.cpp:1016-1035`): `c2` is written before the last reads of `e0` and `e1`. -/
def mulBy01Assign (o : L) (e0 e1 : Ref L) (m : Heap L (Fp6 K)) : Heap L (Fp6 K) :=
  let t0 := (m o).c0.mul (e0.get m)
  let t1 := (m o).c1.mul (e1.get m)
  let t5 := (m o).c1.add (m o).c2
  let t2 := (e1.get m).mul t5
  let t2 := t2.sub t1
  let t2 := t2.mulByNonResidue
  let t5 := (m o).c0.add (m o).c2
  let t3 := (e0.get m).mul t5
  let t3 := t3.sub t0
  let m := m.put o { m o with c2 := t3.add t1 }
  let t4 := (e0.get m).add (e1.get m)
  let t5 := (m o).c0.add (m o).c1
  let t4 := t4.mul t5
  let t4 := t4.sub t0
  let m := m.put o { m o with c1 := t4.sub t1 }
  m.put o { m o with c0 := t2.add t0 }

/-- `fp6::frobeniusMapAssign` (`src/fp.cpp:1146-1173`). -/
def frobeniusMapAssign (o : L) (power : Nat) (m : Heap L (Fp6 K)) : Heap L (Fp6 K) :=
  let m := m.put o { m o with c0 := (m o).c0.frobeniusMap power }
  let m := m.put o { m o with c1 := (m o).c1.frobeniusMap power }
  let m := m.put o { m o with c2 := (m o).c2.frobeniusMap power }
  match power % 6 with
  | 0 => m
  | 3 =>
    let t := Ops.neg (m o).c1.c1
    let m := m.put o { m o with c1 := { (m o).c1 with c1 := (m o).c1.c0 } }
    let m := m.put o { m o with c1 := { (m o).c1 with c0 := t } }
    m.put o { m o with c2 := (m o).c2.neg }
  | i =>
    let m := m.put o { m o with c1 := (m o).c1.mul (frobeniusCoeffs61.getD i zero2) }
    m.put o { m o with c2 := (m o).c2.mul (frobeniusCoeffs62.getD i zero2) }

end Fp6.Mem

/-! ## fp12 -/

namespace Fp12.Mem

/-- `fp12::addAssign` (`src/fp.cpp:1321-1324`). -/
def addAssign (o e : L) (m : Heap L (Fp12 K)) : Heap L (Fp12 K) :=
  let m := m.put o { m o with c0 := (m o).c0.add (m e).c0 }
  m.put o { m o with c1 := (m o).c1.add (m e).c1 }

/-- `fp12::doubleAssign` (`src/fp.cpp:1333-1336`). -/
def doubleAssign (o : L) (m : Heap L (Fp12 K)) : Heap L (Fp12 K) :=
  let m := m.put o { m o with c0 := (m o).c0.dbl }
  m.put o { m o with c1 := (m o).c1.dbl }

/-- `fp12::subtractAssign` (`src/fp.cpp:1345-1348`). -/
def subtractAssign (o e : L) (m : Heap L (Fp12 K)) : Heap L (Fp12 K) :=
  let m := m.put o { m o with c0 := (m o).c0.sub (m e).c0 }
  m.put o { m o with c1 := (m o).c1.sub (m e).c1 }

/-- `fp12::squareAssign` (`src/fp.cpp:1373-1385`). -/
def squareAssign (o : L) (m : Heap L (Fp12 K)) : Heap L (Fp12 K) :=
  let t0 := (m o).c0.add (m o).c1
  let t2 := (m o).c0.mul (m o).c1
  let t1 := (m o).c1.mulByNonResidue
  let t1 := t1.add (m o).c0
  let t3 := t2.mulByNonResidue
  let t0 := t0.mul t1
  let t0 := t0.sub t2
  let m := m.put o { m o with c0 := t0.sub t3 }
  m.put o { m o with c1 := t2.dbl }

/-- `fp12::cyclotomicSquareAssign` (`src/fp.cpp:1394-1418`). -/
def cyclotomicSquareAssign (o : L) (m : Heap L (Fp12 K)) : Heap L (Fp12 K) :=
  let r := fp4Square (m o).c0.c0 (m o).c1.c1
  let t3 := r.1
  let t4 := r.2
  let t2 := t3.sub (m o).c0.c0
  let t2 := t2.dbl
  let m := m.put o { m o with c0 := { (m o).c0 with c0 := t2.add t3 } }
  let t2 := t4.add (m o).c1.c1
  let t2 := t2.dbl
  let m := m.put o { m o with c1 := { (m o).c1 with c1 := t2.add t4 } }
  let r := fp4Square (m o).c1.c0 (m o).c0.c2
  let t3 := r.1
  let t4 := r.2
  let r := fp4Square (m o).c0.c1 (m o).c1.c2
  let t5 := r.1
  let t6 := r.2
  let t2 := t3.sub (m o).c0.c1
  let t2 := t2.dbl
  let m := m.put o { m o with c0 := { (m o).c0 with c1 := t2.add t3 } }
  let t2 := t4.add (m o).c1.c2
  let t2 := t2.dbl
  let m := m.put o { m o with c1 := { (m o).c1 with c2 := t2.add t4 } }
  let t3 := t6.mulByNonResidue
  let t2 := t3.add (m o).c1.c0
  let t2 := t2.dbl
  let m := m.put o { m o with c1 := { (m o).c1 with c0 := t2.add t3 } }
  let t2 := t5.sub (m o).c0.c2
  let t2 := t2.dbl
  m.put o { m o with c0 := { (m o).c0 with c2 := t2.add t5 } }

/-- `fp12::multiplyAssign` (`src/fp.cpp:1427-1440`). -/
def multiplyAssign (o e : L) (m : Heap L (Fp12 K)) : Heap L (Fp12 K) :=
  let t1 := (m o).c0.mul (m e).c0
  let t2 := (m o).c1.mul (m e).c1
  let t0 := t1.add t2
  let t2 := t2.mulByNonResidue
  let t3 := t1.add t2
  let t1 := (m o).c0.add (m o).c1
  let t2 := (m e).c0.add (m e).c1
  let t1 := t1.mul t2
  let m := m.put o { m o with c0 := t3 }
  m.put o { m o with c1 := t1.sub t0 }

/-- A reference to an `fp2` inside an `fp12` object (arguments in `include/bls12-381/fp.hpp:265`). -/
inductive Ref (L : Type) where
  | c0 (r : Fp6.Mem.Ref L)
  | c1 (r : Fp6.Mem.Ref L)
deriving DecidableEq

/-- The value that a reference reads, as `e0` in `src/fp.cpp:1472-1485`. -/
def Ref.get {L T : Type} (m : Heap L (Fp12 T)) : Ref L → Fp2 T
  | .c0 r => r.get fun o => (m o).c0
  | .c1 r => r.get fun o => (m o).c1

/-- `fp12::mulBy014Assign` (`src/fp.cpp:1472-1485`). -/
def mulBy014Assign (o : L) (e0 e1 e4 : Ref L) (m : Heap L (Fp12 K)) : Heap L (Fp12 K) :=
  let t0 := (m o).c0.mulBy01 (e0.get m) (e1.get m)
  let t1 := (m o).c1.mulBy1 (e4.get m)
  let s := (e1.get m).add (e4.get m)
  let t2 := (m o).c1.add (m o).c0
  let t2 := t2.mulBy01Assign (e0.get m) s
  let t2 := t2.sub t0
  let m := m.put o { m o with c1 := t2.sub t1 }
  let t1 := t1.mulByNonResidue
  m.put o { m o with c0 := t1.add t0 }

end Fp12.Mem

/-! ## Points -/

namespace Jac.Mem

variable {F : Type} [Ops F]

/-- `g1::doubleAssign` (`src/g.cpp:400-430`), `g2::doubleAssign` (`src/g.cpp:1121-1151`). -/
def doubleAssign (o : L) (m : Heap L (Jac F)) : Heap L (Jac F) :=
  if (m o).isZero then m
  else
    let t0 := Ops.sqr (m o).x
    let t1 := Ops.sqr (m o).y
    let t2 := Ops.sqr t1
    let t1 := Ops.add (m o).x t1
    let t1 := Ops.sqr t1
    let t1 := Ops.sub t1 t0
    let t1 := Ops.sub t1 t2
    let t1 := Ops.dbl t1
    let t3 := Ops.dbl t0
    let t0 := Ops.add t3 t0
    let t4 := Ops.sqr t0
    let t3 := Ops.dbl t1
    let m := m.put o { m o with x := Ops.sub t4 t3 }
    let t1 := Ops.sub t1 (m o).x
    let t2 := Ops.dbl t2
    let t2 := Ops.dbl t2
    let t2 := Ops.dbl t2
    let t0 := Ops.mul t0 t1
    let t1 := Ops.sub t0 t2
    let t0 := Ops.mul (m o).y (m o).z
    let m := m.put o { m o with y := t1 }
    m.put o { m o with z := Ops.dbl t0 }

/-- `g1::addAssign` (`src/g.cpp:339-391`), `g2::addAssign` (`src/g.cpp:1060-1112`): `x`, `y` are written before the last
read of `e.z`. -/
def addAssign (o e : L) (m : Heap L (Jac F)) : Heap L (Jac F) :=
  if (m o).isZero then m.put o (m e)
  else if (m e).isZero then m
  else
    let t7 := Ops.sqr (m o).z
    let t1 := Ops.mul (m e).x t7
    let t2 := Ops.mul (m o).z t7
    let t0 := Ops.mul (m e).y t2
    let t8 := Ops.sqr (m e).z
    let t3 := Ops.mul (m o).x t8
    let t4 := Ops.mul (m e).z t8
    let t2 := Ops.mul (m o).y t4
    if Ops.equal t1 t3 then
      if Ops.equal t0 t2 then doubleAssign o m else m.put o zero
    else
      let t1 := Ops.sub t1 t3
      let t4 := Ops.dbl t1
      let t4 := Ops.sqr t4
      let t5 := Ops.mul t1 t4
      let t0 := Ops.sub t0 t2
      let t0 := Ops.dbl t0
      let t6 := Ops.sqr t0
      let t6 := Ops.sub t6 t5
      let t3 := Ops.mul t3 t4
      let t4 := Ops.dbl t3
      let m := m.put o { m o with x := Ops.sub t6 t4 }
      let t4 := Ops.sub t3 (m o).x
      let t6 := Ops.mul t2 t5
      let t6 := Ops.dbl t6
      let t0 := Ops.mul t0 t4
      let m := m.put o { m o with y := Ops.sub t0 t6 }
      let t0 := Ops.add (m o).z (m e).z
      let t0 := Ops.sqr t0
      let t0 := Ops.sub t0 t7
      let t0 := Ops.sub t0 t8
      m.put o { m o with z := Ops.mul t0 t1 }

end Jac.Mem

end Bls
