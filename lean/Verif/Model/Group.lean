import Verif.Model.Ops
import Verif.Model.Tower

/-!
# The point classes `g1` and `g2`: group operations

`src/g.cpp` contains the same formulas twice, once over `fp` for `g1` and once over `fp2` for `g2`. They are
modelled once over the operations of the coordinate field; every definition cites both places. The only inputs
that differ are the curve constant `b` (`fp::B`, `fp2::B`) and the endomorphisms, which are separate below.

The mutating members (`addAssign`, `doubleAssign`, `subtractAssign`) return the new value of `*this`. When the
argument is `*this` itself (`r.addAssign(r)`) the C++ code leaves through the doubling branch or through the
self-assignment of the zero branch before it writes a coordinate, so value semantics is faithful there too.
-/

namespace Bls

/-- `class g1` / `class g2`: three coordinates (`include/bls12-381/g.hpp:19-21`, `:85-87`). -/
structure Jac (F : Type) where
  x : F
  y : F
  z : F
deriving DecidableEq

namespace Jac

variable {F : Type} [Ops F]

/-- `g1::zero` (`src/g.cpp:234-241`), `g2::zero` (`src/g.cpp:953-960`). -/
def zero : Jac F := ⟨Ops.zero, Ops.one, Ops.zero⟩

/-- `g1::isZero` (`src/g.cpp:248-251`), `g2::isZero` (`src/g.cpp:967-970`). -/
def isZero (a : Jac F) : Bool := Ops.isZero a.z

/-- `g1::equal` (`src/g.cpp:253-274`), `g2::equal` (`src/g.cpp:972-992`). -/
def equal (a b : Jac F) : Bool :=
  if a.isZero then b.isZero
  else if b.isZero then a.isZero
  else
    let t0 := Ops.sqr a.z
    let t1 := Ops.sqr b.z
    let t2 := Ops.mul t0 b.x
    let t3 := Ops.mul t1 a.x
    let t0 := Ops.mul t0 a.z
    let t1 := Ops.mul t1 b.z
    let t1 := Ops.mul t1 a.y
    let t0 := Ops.mul t0 b.y
    Ops.equal t0 t1 && Ops.equal t2 t3

/-- `g1::isOnCurve` (`src/g.cpp:292-308`), `g2::isOnCurve` (`src/g.cpp:1013-1029`); `b` is `fp::B` or
`fp2::B`. -/
def isOnCurve (b : F) (a : Jac F) : Bool :=
  if a.isZero then true
  else
    let t0 := Ops.sqr a.y
    let t1 := Ops.sqr a.x
    let t1 := Ops.mul t1 a.x
    let t2 := Ops.sqr a.z
    let t3 := Ops.sqr t2
    let t2 := Ops.mul t2 t3
    let t2 := Ops.mul b t2
    let t1 := Ops.add t1 t2
    Ops.equal t0 t1

/-- `g1::isAffine` (`src/g.cpp:310-313`), `g2::isAffine` (`src/g.cpp:1031-1034`). -/
def isAffine (a : Jac F) : Bool := Ops.isOne a.z

/-- `g1::affine` (`src/g.cpp:315-330`), `g2::affine` (`src/g.cpp:1036-1051`). -/
def affine (a : Jac F) : Jac F :=
  if a.isZero || a.isAffine then a
  else
    let t0 := Ops.inv a.z
    let t1 := Ops.sqr t0
    let x := Ops.mul a.x t1
    let t0 := Ops.mul t0 t1
    let y := Ops.mul a.y t0
    ⟨x, y, Ops.one⟩

/-- `g1::doubleAssign` and `dbl` (`src/g.cpp:393-430`), `g2::doubleAssign` and `dbl` (`src/g.cpp:1114-1151`). -/
def dbl (a : Jac F) : Jac F :=
  if a.isZero then a
  else
    let t0 := Ops.sqr a.x
    let t1 := Ops.sqr a.y
    let t2 := Ops.sqr t1
    let t1 := Ops.add a.x t1
    let t1 := Ops.sqr t1
    let t1 := Ops.sub t1 t0
    let t1 := Ops.sub t1 t2
    let t1 := Ops.dbl t1
    let t3 := Ops.dbl t0
    let t0 := Ops.add t3 t0
    let t4 := Ops.sqr t0
    let t3 := Ops.dbl t1
    let x := Ops.sub t4 t3
    let t1 := Ops.sub t1 x
    let t2 := Ops.dbl t2
    let t2 := Ops.dbl t2
    let t2 := Ops.dbl t2
    let t0 := Ops.mul t0 t1
    let t1 := Ops.sub t0 t2
    let t0 := Ops.mul a.y a.z
    ⟨x, t1, Ops.dbl t0⟩

/-- `g1::addAssign` and `add` (`src/g.cpp:332-391`), `g2::addAssign` and `add` (`src/g.cpp:1053-1112`). -/
def add (a e : Jac F) : Jac F :=
  if a.isZero then e
  else if e.isZero then a
  else
    let t7 := Ops.sqr a.z
    let t1 := Ops.mul e.x t7
    let t2 := Ops.mul a.z t7
    let t0 := Ops.mul e.y t2
    let t8 := Ops.sqr e.z
    let t3 := Ops.mul a.x t8
    let t4 := Ops.mul e.z t8
    let t2 := Ops.mul a.y t4
    if Ops.equal t1 t3 then
      if Ops.equal t0 t2 then a.dbl else zero
    else
      let t1 := Ops.sub t1 t3
      let t4 := Ops.dbl t1
      let t4 := Ops.sqr t4
      let t5 := Ops.mul t1 t4
      let t0 := Ops.sub t0 t2
      let t0 := Ops.dbl t0
      let t6 := Ops.sqr t0
      let t6 := Ops.sub t6 t5
      let t3 := Ops.mul t3 t4
      let t4 := Ops.dbl t3
      let x := Ops.sub t6 t4
      let t4 := Ops.sub t3 x
      let t6 := Ops.mul t2 t5
      let t6 := Ops.dbl t6
      let t0 := Ops.mul t0 t4
      let y := Ops.sub t0 t6
      let t0 := Ops.add a.z e.z
      let t0 := Ops.sqr t0
      let t0 := Ops.sub t0 t7
      let t0 := Ops.sub t0 t8
      ⟨x, y, Ops.mul t0 t1⟩

/-- `g1::negate` (`src/g.cpp:432-439`), `g2::negate` (`src/g.cpp:1153-1160`). -/
def negate (a : Jac F) : Jac F := ⟨a.x, Ops.neg a.y, a.z⟩

/-- `g1::subtract` and `subtractAssign` (`src/g.cpp:441-450`), `g2::subtract` and `subtractAssign`
(`src/g.cpp:1162-1171`). -/
def subtract (a e : Jac F) : Jac F := a.add e.negate

/-- The loop of `scale` (`include/bls12-381/scalar.hpp:336-343`, `:353-360`): `n` remaining bit positions from bit `i` upwards. -/
def scaleLoop (s : List UInt64) : Nat → Nat → Jac F → Jac F → Jac F
  | 0, _, q, _ => q
  | n + 1, i, q, a =>
    let q := if Scalar.bit s i then q.add a else q
    scaleLoop s n (i + 1) q a.dbl

/-- `g1::scale` (`include/bls12-381/scalar.hpp:330-345`), `g2::scale` (`include/bls12-381/scalar.hpp:347-362`).
The accumulator starts at `(0,0,0)`. -/
def scale (a : Jac F) (s : List UInt64) : Jac F :=
  scaleLoop s (Scalar.bitLength s) 0 ⟨Ops.zero, Ops.zero, Ops.zero⟩ a

/-! ## Weighted sums -/

/-- The window width of `weightedSum` (`src/g.cpp:475-479`, `src/g.cpp:1239-1243`):
`std::numeric_limits<size_t>::digits` is 64. -/
def windowBits (n : Nat) : Nat :=
  if n ≥ 32 then (64 - Scalar.countlZero (UInt64.ofNat n)) / 3 + 2 else 3

/-- The bucket index of one scalar in window `j` (`src/g.cpp:500-502`, `src/g.cpp:1264-1266`):
`bucketSize & (s >> (c*j))[0]`. -/
def windowIndex (c j : Nat) (s : List UInt64) : Nat :=
  (UInt64.ofNat (2 ^ c - 1) &&& (Scalar.rsh s (c * j)).getD 0 0).toNat

/-- The distribution loop of one window (`src/g.cpp:495-507`, `src/g.cpp:1259-1271`). An index outside the
bucket array would be undefined behaviour; `List.modify` ignores it and `windowIndex_lt` shows it cannot
happen. -/
def fillBuckets (c j : Nat) (pairs : List (Jac F × List UInt64)) (bucket : List (Jac F)) : List (Jac F) :=
  pairs.foldl (fun bucket ps =>
    let index := windowIndex c j ps.2
    if index ≠ 0 then bucket.modify (index - 1) (fun b => b.add ps.1) else bucket) bucket

/-- The running-sum loop of one window (`src/g.cpp:508-517`, `src/g.cpp:1272-1281`), from the last bucket to
the first. -/
def sumBuckets (bucket : List (Jac F)) : Jac F :=
  (bucket.foldr (fun b (st : Jac F × Jac F) =>
    let sum := st.2.add b
    (st.1.add sum, sum)) (zero, zero)).1

/-- One window (`src/g.cpp:486-519`, `src/g.cpp:1250-1283`). -/
def window (c : Nat) (pairs : List (Jac F × List UInt64)) (j : Nat) : Jac F :=
  sumBuckets (fillBuckets c j pairs (List.replicate (2 ^ c - 1) zero))

/-- `c` doublings (`src/g.cpp:524-527`, `src/g.cpp:1288-1291`). -/
def dblN : Nat → Jac F → Jac F
  | 0, a => a
  | n + 1, a => dblN n a.dbl

/-- `g1::weightedSum` (`src/g.cpp:472-531`), `g2::weightedSum` (`src/g.cpp:1236-1295`). `List.zip` drops the
excess of the longer list, as `effective_size` does. This is the value without the `yield` callback and the vectors, which
`weightedSumRun` in `Model/WeightedSum.lean` follows. -/
def weightedSum (points : List (Jac F)) (scalars : List (List UInt64)) : Jac F :=
  let pairs := points.zip scalars
  let c := windowBits pairs.length
  let windows := (List.range (255 / c + 1)).map (window c pairs)
  windows.foldr (fun w acc => (dblN c acc).add w) zero

end Jac

/-- `class g1` (`include/bls12-381/g.hpp:15-76`). -/
abbrev G1 (K : Type) := Jac K

/-- `class g2` (`include/bls12-381/g.hpp:81-144`). -/
abbrev G2 (K : Type) := Jac (Fp2 K)

/-- `g1::one` and `g1::BASE` (`src/g.cpp:243-246`, `:713-717`). -/
def G1.one {K : Type} [FpOps K] : G1 K := ⟨
  FpOps.const ⟨0x5cb38790fd530c16, 0x7817fc679976fff5, 0x154f95c7143ba1c1, 0xf0ae6acdf3d0e747,
    0xedce6ecc21dbf440, 0x120177419e0bfb75⟩,
  FpOps.const ⟨0xbaac93d50ce72271, 0x8c22631a7918fd8e, 0xdd595f13570725ce, 0x51ac582950405194,
    0x0e1c8c3fad0059c0, 0x0bbc3efc5008a26a⟩,
  FpOps.const ⟨0x760900000002fffd, 0xebf4000bc40c0002, 0x5f48985753c758ba, 0x77ce585370525745,
    0x5c071a97a256ec6d, 0x15f65ec3fa80e493⟩⟩

/-- `g2::one` and `g2::BASE` (`src/g.cpp:962-965`, `:1610-1623`). -/
def G2.one {K : Type} [FpOps K] : G2 K := ⟨
  ⟨FpOps.const ⟨0xf5f28fa202940a10, 0xb3f5fb2687b4961a, 0xa1a893b53e2ae580, 0x9894999d1a3caee9,
    0x6f67b7631863366b, 0x058191924350bcd7⟩,
   FpOps.const ⟨0xa5a9c0759e23f606, 0xaaa0c59dbccd60c3, 0x3bb17e18e2867806, 0x1b1ab6cc8541b367,
    0xc2b6ed0ef2158547, 0x11922a097360edf3⟩⟩,
  ⟨FpOps.const ⟨0x4c730af860494c4a, 0x597cfa1f5e369c5a, 0xe7e6856caa0a635a, 0xbbefb5e96e0d495f,
    0x07d3a975f0ef25a2, 0x083fd8e7e80dae5⟩,
   FpOps.const ⟨0xadc0fc92df64b05d, 0x18aa270a2b1461dc, 0x86adac6a3be4eba0, 0x79495c4ec93da33a,
    0xe7175850a43ccaed, 0xb2bc2a163de1bf2⟩⟩,
  ⟨FpOps.const ⟨0x760900000002fffd, 0xebf4000bc40c0002, 0x5f48985753c758ba, 0x77ce585370525745,
    0x5c071a97a256ec6d, 0x15f65ec3fa80e493⟩,
   FpOps.const ⟨0, 0, 0, 0, 0, 0⟩⟩⟩

end Bls
