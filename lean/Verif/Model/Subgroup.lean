import Verif.Model.Group

/-!
# Endomorphisms, subgroup membership, clearing of cofactors (`src/g.cpp`)
-/

namespace Bls

namespace G1

variable {K : Type} [FpOps K]

/-- `g1::glvEndomorphism` (`src/g.cpp:457-466`). -/
def glvEndomorphism (a : G1 K) : G1 K :=
  if a.isZero then Jac.zero
  else
    let t := a.affine
    ⟨FpC.phi t.x, t.y, t.z⟩

/-- `g1::inCorrectSubgroup` (`src/g.cpp:276-290`). -/
def inCorrectSubgroup (a : G1 K) : Bool :=
  let t0 := glvEndomorphism a
  let t1 := t0
  let t0 := glvEndomorphism t0
  let t1 := t1.dbl
  let t1 := t1.subtract a
  let t1 := t1.subtract t0
  let t1 := t1.scale [0x0000000055555555, 0x396c8c005555e156]
  let t1 := t1.subtract t0
  t1.isZero

/-- `g1::cofactorEFF` (`src/g.cpp:719`). -/
def cofactorEFF : List UInt64 := [0xd201000000010001]

/-- `g1::clearCofactor` (`src/g.cpp:452-455`). -/
def clearCofactor (a : G1 K) : G1 K := a.scale cofactorEFF

end G1

namespace G2

variable {K : Type} [FpOps K]

/-- `g2::psi` (`src/g.cpp:1173-1182`). -/
def psi (a : G2 K) : G2 K :=
  let x := a.x.conjugate
  let y := a.y.conjugate
  let z := a.z.conjugate
  ⟨x.mul Fp2.psiX, y.mul Fp2.psiY, z⟩

/-- `g2::cofactorEFF` (`src/g.cpp:1625`). -/
def cofactorEFF : List UInt64 := [0xd201000000010000]

/-- `g2::inCorrectSubgroup` (`src/g.cpp:994-1011`). -/
def inCorrectSubgroup (a : G2 K) : Bool :=
  let t0 := psi a
  let t0 := psi t0
  let t1 := t0.negate
  let t0 := psi t0
  let t0 := t0.scale cofactorEFF
  let t0 := t0.negate
  let t0 := t0.add t1
  let t0 := t0.add a
  t0.isZero

/-- `frb0` in `g2::frobeniusMap` (`src/g.cpp:1212-1215`). -/
def frb0 : Fp2 K := ⟨FpOps.const ⟨0, 0, 0, 0, 0, 0⟩, FpOps.const ⟨0x890dc9e4867545c3, 0x2af322533285a5d5, 0x50880866309b7e2c,
  0xa20d1b8c7e881024, 0x14e4f04fe2db9068, 0x14e56d3f1564853a⟩⟩

/-- `frb1` in `g2::frobeniusMap` (`src/g.cpp:1216-1219`). -/
def frb1 : Fp2 K := ⟨FpOps.const ⟨0x3e2f585da55c9ad1, 0x4294213d86c18183, 0x382844c88b623732, 0x92ad2afd19103e18,
  0x1d794e4fac7cf0b9, 0x0bd592fc7d825ec8⟩, FpOps.const ⟨0x7bcfa7a25aa30fda, 0xdc17dec12a927e7c, 0x2f088dd86b4ebef1,
  0xd1ca2087da74d4a7, 0x2da2596696cebc1d, 0x0e2b7eedbbfd87d2⟩⟩

/-- `g2::frobeniusMap` (`src/g.cpp:1210-1230`) for `power ≥ 0`; a negative power is the power `0`. -/
def frobeniusMap (a : G2 K) : Nat → G2 K
  | 0 => a
  | power + 1 =>
    let r : G2 K := ⟨a.x.frobeniusMap 1, a.y.frobeniusMap 1, a.z.frobeniusMap 1⟩
    frobeniusMap ⟨r.x.mul frb0, r.y.mul frb1, r.z⟩ power

/-- `g2::clearCofactor` (`src/g.cpp:1184-1208`). -/
def clearCofactor (a : G2 K) : G2 K :=
  let t0 := a.scale cofactorEFF
  let t0 := t0.negate
  let t1 := t0.scale cofactorEFF
  let t1 := t1.negate
  let t2 := t1.subtract t0
  let t2 := t2.subtract a
  let t3 := t0.subtract a
  let t3 := frobeniusMap t3 1
  let t2 := t2.add t3
  let t3 := a.dbl
  let t3 := frobeniusMap t3 2
  t2.add t3

end G2

end Bls
