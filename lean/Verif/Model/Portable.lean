import Verif.Model.Limbs

/-!
# Portable backend

The C++ routines of `src/arithmetic.cpp` compiled when `__x86_64__` is *not* defined.
`z` is returned; the code reads every word of an operand that it still needs before it
overwrites that word of `z`, so `z` may be the same object as `x` or `y` (`Model/Alias.lean`, C52).
-/

namespace Bls.Portable

/-- The six `Add64` calls: `src/arithmetic.cpp:16-21`. -/
def addChain (x y : Fp) : Fp :=
  let r0 := add64 x.d0 y.d0 0
  let r1 := add64 x.d1 y.d1 r0.2
  let r2 := add64 x.d2 y.d2 r1.2
  let r3 := add64 x.d3 y.d3 r2.2
  let r4 := add64 x.d4 y.d4 r3.2
  let r5 := add64 x.d5 y.d5 r4.2
  ⟨r0.1, r1.1, r2.1, r3.1, r4.1, r5.1⟩

/-- The six `Sub64` calls: `src/arithmetic.cpp:88-93`; also the last borrow. -/
def subChain (x y : Fp) : Fp × UInt64 :=
  let r0 := sub64 x.d0 y.d0 0
  let r1 := sub64 x.d1 y.d1 r0.2
  let r2 := sub64 x.d2 y.d2 r1.2
  let r3 := sub64 x.d3 y.d3 r2.2
  let r4 := sub64 x.d4 y.d4 r3.2
  let r5 := sub64 x.d5 y.d5 r4.2
  (⟨r0.1, r1.1, r2.1, r3.1, r4.1, r5.1⟩, r5.2)

/-- The conditional subtraction of the modulus: `src/arithmetic.cpp:25-34` (61-70, 306-315, 418-427). -/
def condSub (z : Fp) : Fp :=
  if !ltModulus z then (subChain z MODULUS).1 else z

/-- `_add`: `src/arithmetic.cpp:12-35`. -/
def add (x y : Fp) : Fp := condSub (addChain x y)

/-- `_ladd`: `src/arithmetic.cpp:37-46`. -/
def ladd (x y : Fp) : Fp := addChain x y

/-- `_double`: `src/arithmetic.cpp:48-71`. -/
def double (x : Fp) : Fp := condSub (addChain x x)

/-- `_ldouble`: `src/arithmetic.cpp:73-83`. -/
def ldouble (x : Fp) : Fp := addChain x x

/-- `_subtract`: `src/arithmetic.cpp:85-104`. -/
def subtract (x y : Fp) : Fp :=
  let r := subChain x y
  if r.2 != 0 then addChain r.1 MODULUS else r.1

/-- `_lsubtract`: `src/arithmetic.cpp:106-115`. -/
def lsubtract (x y : Fp) : Fp := (subChain x y).1

/-- `_negate` (portable): `src/arithmetic.cpp:130-145`. -/
def negate (x : Fp) : Fp :=
  if x.isZero then x else (subChain MODULUS x).1

/-- Round 0 of `_multiply`: `src/arithmetic.cpp:201-217`. -/
def mulRound0 (v : UInt64) (y : Fp) : Fp :=
  let a0 := mul64 v y.d0
  let m := a0.2 * INP
  let c2 := madd0 m MODULUS.d0 a0.2
  let a1 := madd1 v y.d1 a0.1
  let b1 := madd2 m MODULUS.d1 c2 a1.2
  let a2 := madd1 v y.d2 a1.1
  let b2 := madd2 m MODULUS.d2 b1.1 a2.2
  let a3 := madd1 v y.d3 a2.1
  let b3 := madd2 m MODULUS.d3 b2.1 a3.2
  let a4 := madd1 v y.d4 a3.1
  let b4 := madd2 m MODULUS.d4 b3.1 a4.2
  let a5 := madd1 v y.d5 a4.1
  let b5 := madd3 m MODULUS.d5 a5.2 b4.1 a5.1
  ⟨b1.2, b2.2, b3.2, b4.2, b5.2, b5.1⟩

/-- Rounds 1 to 5 of `_multiply`: `src/arithmetic.cpp:218-302` (the same code five times). -/
def mulRound (v : UInt64) (y t : Fp) : Fp :=
  let a0 := madd1 v y.d0 t.d0
  let m := a0.2 * INP
  let c2 := madd0 m MODULUS.d0 a0.2
  let a1 := madd2 v y.d1 a0.1 t.d1
  let b1 := madd2 m MODULUS.d1 c2 a1.2
  let a2 := madd2 v y.d2 a1.1 t.d2
  let b2 := madd2 m MODULUS.d2 b1.1 a2.2
  let a3 := madd2 v y.d3 a2.1 t.d3
  let b3 := madd2 m MODULUS.d3 b2.1 a3.2
  let a4 := madd2 v y.d4 a3.1 t.d4
  let b4 := madd2 m MODULUS.d4 b3.1 a4.2
  let a5 := madd2 v y.d5 a4.1 t.d5
  let b5 := madd3 m MODULUS.d5 a5.2 b4.1 a5.1
  ⟨b1.2, b2.2, b3.2, b4.2, b5.2, b5.1⟩

/-- `_multiply` (portable): `src/arithmetic.cpp:197-316`. -/
def multiply (x y : Fp) : Fp :=
  let t := mulRound0 x.d0 y
  let t := mulRound x.d1 y t
  let t := mulRound x.d2 y t
  let t := mulRound x.d3 y t
  let t := mulRound x.d4 y t
  let t := mulRound x.d5 y t
  condSub t

/-- Round 0 of `_square`: `src/arithmetic.cpp:329-345`. -/
def sqRound0 (x : Fp) : Fp :=
  let r := mul64 x.d0 x.d0
  let u := r.1
  let p0 := r.2
  let m := p0 * INP
  let C := madd0 m MODULUS.d0 p0
  let r := madd1sb x.d0 x.d1 u
  let t := r.1
  let u := r.2.1
  let v := r.2.2
  let r := madd2 m MODULUS.d1 v C
  let C := r.1
  let p0 := r.2
  let r := madd1s x.d0 x.d2 t u
  let t := r.1
  let u := r.2.1
  let v := r.2.2
  let r := madd2 m MODULUS.d2 v C
  let C := r.1
  let p1 := r.2
  let r := madd1s x.d0 x.d3 t u
  let t := r.1
  let u := r.2.1
  let v := r.2.2
  let r := madd2 m MODULUS.d3 v C
  let C := r.1
  let p2 := r.2
  let r := madd1s x.d0 x.d4 t u
  let t := r.1
  let u := r.2.1
  let v := r.2.2
  let r := madd2 m MODULUS.d4 v C
  let C := r.1
  let p3 := r.2
  let r := madd1s x.d0 x.d5 t u
  let u := r.2.1
  let v := r.2.2
  let r := madd3 m MODULUS.d5 v C u
  let p5 := r.1
  let p4 := r.2
  ⟨p0, p1, p2, p3, p4, p5⟩

/-- Round 1 of `_square`: `src/arithmetic.cpp:346-361`. -/
def sqRound1 (x p : Fp) : Fp :=
  let p0 := p.d0
  let p1 := p.d1
  let p2 := p.d2
  let p3 := p.d3
  let p4 := p.d4
  let p5 := p.d5
  let m := p0 * INP
  let C := madd0 m MODULUS.d0 p0
  let r := madd1 x.d1 x.d1 p1
  let u := r.1
  let v := r.2
  let r := madd2 m MODULUS.d1 v C
  let C := r.1
  let p0 := r.2
  let r := madd2sb x.d1 x.d2 p2 u
  let t := r.1
  let u := r.2.1
  let v := r.2.2
  let r := madd2 m MODULUS.d2 v C
  let C := r.1
  let p1 := r.2
  let r := madd2s x.d1 x.d3 p3 t u
  let t := r.1
  let u := r.2.1
  let v := r.2.2
  let r := madd2 m MODULUS.d3 v C
  let C := r.1
  let p2 := r.2
  let r := madd2s x.d1 x.d4 p4 t u
  let t := r.1
  let u := r.2.1
  let v := r.2.2
  let r := madd2 m MODULUS.d4 v C
  let C := r.1
  let p3 := r.2
  let r := madd2s x.d1 x.d5 p5 t u
  let u := r.2.1
  let v := r.2.2
  let r := madd3 m MODULUS.d5 v C u
  let p5 := r.1
  let p4 := r.2
  ⟨p0, p1, p2, p3, p4, p5⟩

/-- Round 2 of `_square`: `src/arithmetic.cpp:362-376`. -/
def sqRound2 (x p : Fp) : Fp :=
  let p0 := p.d0
  let p1 := p.d1
  let p2 := p.d2
  let p3 := p.d3
  let p4 := p.d4
  let p5 := p.d5
  let m := p0 * INP
  let C := madd0 m MODULUS.d0 p0
  let r := madd2 m MODULUS.d1 p1 C
  let C := r.1
  let p0 := r.2
  let r := madd1 x.d2 x.d2 p2
  let u := r.1
  let v := r.2
  let r := madd2 m MODULUS.d2 v C
  let C := r.1
  let p1 := r.2
  let r := madd2sb x.d2 x.d3 p3 u
  let t := r.1
  let u := r.2.1
  let v := r.2.2
  let r := madd2 m MODULUS.d3 v C
  let C := r.1
  let p2 := r.2
  let r := madd2s x.d2 x.d4 p4 t u
  let t := r.1
  let u := r.2.1
  let v := r.2.2
  let r := madd2 m MODULUS.d4 v C
  let C := r.1
  let p3 := r.2
  let r := madd2s x.d2 x.d5 p5 t u
  let u := r.2.1
  let v := r.2.2
  let r := madd3 m MODULUS.d5 v C u
  let p5 := r.1
  let p4 := r.2
  ⟨p0, p1, p2, p3, p4, p5⟩

/-- Round 3 of `_square`: `src/arithmetic.cpp:377-390`. -/
def sqRound3 (x p : Fp) : Fp :=
  let p0 := p.d0
  let p1 := p.d1
  let p2 := p.d2
  let p3 := p.d3
  let p4 := p.d4
  let p5 := p.d5
  let m := p0 * INP
  let C := madd0 m MODULUS.d0 p0
  let r := madd2 m MODULUS.d1 p1 C
  let C := r.1
  let p0 := r.2
  let r := madd2 m MODULUS.d2 p2 C
  let C := r.1
  let p1 := r.2
  let r := madd1 x.d3 x.d3 p3
  let u := r.1
  let v := r.2
  let r := madd2 m MODULUS.d3 v C
  let C := r.1
  let p2 := r.2
  let r := madd2sb x.d3 x.d4 p4 u
  let t := r.1
  let u := r.2.1
  let v := r.2.2
  let r := madd2 m MODULUS.d4 v C
  let C := r.1
  let p3 := r.2
  let r := madd2s x.d3 x.d5 p5 t u
  let u := r.2.1
  let v := r.2.2
  let r := madd3 m MODULUS.d5 v C u
  let p5 := r.1
  let p4 := r.2
  ⟨p0, p1, p2, p3, p4, p5⟩

/-- Round 4 of `_square`: `src/arithmetic.cpp:391-403`. -/
def sqRound4 (x p : Fp) : Fp :=
  let p0 := p.d0
  let p1 := p.d1
  let p2 := p.d2
  let p3 := p.d3
  let p4 := p.d4
  let p5 := p.d5
  let m := p0 * INP
  let C := madd0 m MODULUS.d0 p0
  let r := madd2 m MODULUS.d1 p1 C
  let C := r.1
  let p0 := r.2
  let r := madd2 m MODULUS.d2 p2 C
  let C := r.1
  let p1 := r.2
  let r := madd2 m MODULUS.d3 p3 C
  let C := r.1
  let p2 := r.2
  let r := madd1 x.d4 x.d4 p4
  let u := r.1
  let v := r.2
  let r := madd2 m MODULUS.d4 v C
  let C := r.1
  let p3 := r.2
  let r := madd2sb x.d4 x.d5 p5 u
  let u := r.2.1
  let v := r.2.2
  let r := madd3 m MODULUS.d5 v C u
  let p5 := r.1
  let p4 := r.2
  ⟨p0, p1, p2, p3, p4, p5⟩

/-- Round 5 of `_square`: `src/arithmetic.cpp:404-414`. -/
def sqRound5 (x p : Fp) : Fp :=
  let p0 := p.d0
  let p1 := p.d1
  let p2 := p.d2
  let p3 := p.d3
  let p4 := p.d4
  let p5 := p.d5
  let m := p0 * INP
  let C := madd0 m MODULUS.d0 p0
  let r := madd2 m MODULUS.d1 p1 C
  let C := r.1
  let z0 := r.2
  let r := madd2 m MODULUS.d2 p2 C
  let C := r.1
  let z1 := r.2
  let r := madd2 m MODULUS.d3 p3 C
  let C := r.1
  let z2 := r.2
  let r := madd2 m MODULUS.d4 p4 C
  let C := r.1
  let z3 := r.2
  let r := madd1 x.d5 x.d5 p5
  let u := r.1
  let v := r.2
  let r := madd3 m MODULUS.d5 v C u
  let z5 := r.1
  let z4 := r.2
  ⟨z0, z1, z2, z3, z4, z5⟩

/-- `_square` (portable): `src/arithmetic.cpp:325-428`. -/
def square (x : Fp) : Fp :=
  let p := sqRound0 x
  let p := sqRound1 x p
  let p := sqRound2 x p
  let p := sqRound3 x p
  let p := sqRound4 x p
  let p := sqRound5 x p
  condSub p

end Bls.Portable
