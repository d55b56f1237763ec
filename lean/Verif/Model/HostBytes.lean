import Verif.Model.GroupCodec
import Verif.Model.MapToCurve
import Verif.Model.Signatures

/-!
# A virtual machine that offers the library to its programs

The host functions of a chain that uses the library: they check the lengths of the byte strings of a program, decode, call one
function of the library and encode, little-endian throughout. `none` is an error. This is the code of a caller and follows no
code in /repo; the functions it calls do. `mont` is the value of `to_mont` and `from_mont` in the options, `check_valid` is set.
-/

namespace Bls.Host

variable {adx : Bool}

/-- A caller of `fp::fromBytesLE` (`src/fp.cpp:29-36`). -/
def decodeFp (mont : Bool) (bs : List UInt8) : Option (FpV adx) :=
  if bs.length ≠ 48 then none else FpV.fromBytesLE adx mont bs

/-- A caller of `fp2::fromBytesLE` (`src/fp.cpp:476-482`). -/
def decodeFp2 (mont : Bool) (bs : List UInt8) : Option (Fp2 (FpV adx)) :=
  if bs.length ≠ 96 then none else Fp2.fromBytesLE (FpV.fromBytesLE adx mont) bs

/-- A caller of `g1::fromAffineBytesLE` (`src/g.cpp:76-96`). -/
def decodeG1 (mont : Bool) (bs : List UInt8) : Option (G1 (FpV adx)) :=
  if bs.length ≠ 96 then none else Jac.fromAffineBytes 48 (FpV.fromBytesLE adx mont) FpC.B true bs

/-- A caller of `g2::fromAffineBytesLE` (`src/g.cpp:789-809`). -/
def decodeG2 (mont : Bool) (bs : List UInt8) : Option (G2 (FpV adx)) :=
  if bs.length ≠ 192 then none else Jac.fromAffineBytes 96 (Fp2.fromBytesLE (FpV.fromBytesLE adx mont)) Fp2.B true bs

/-- A caller of `g1::toAffineBytesLE` (`src/g.cpp:166-176`). -/
def encodeG1 (mont : Bool) (a : G1 (FpV adx)) : List UInt8 := Jac.toAffineBytes 48 (FpV.toBytesLE adx mont) a

/-- A caller of `g2::toAffineBytesLE` (`src/g.cpp:884-894`). -/
def encodeG2 (mont : Bool) (a : G2 (FpV adx)) : List UInt8 := Jac.toAffineBytes 96 (Fp2.toBytesLE (FpV.toBytesLE adx mont)) a

/-- A caller of `scalar::fromBytesLE<8>` (`include/bls12-381/scalar.hpp:57-76`), `fp::modPrime<8>`
(`include/bls12-381/scalar.hpp:241-249`) and `fp::toBytesLE` (`src/fp.cpp:56-60`). -/
def fpMod (adx mont : Bool) (inp : List UInt8) : Option (List UInt8) := do
  if inp.length ≠ 64 then none
  let x : FpV adx ← Sig.modPrime (Scalar.fromBytesLE 8 inp)
  some (FpV.toBytesLE adx mont x)

/-- A caller of `fp::multiply` (`src/fp.cpp:150-155`). -/
def fpMul (adx mont : Bool) (a b : List UInt8) : Option (List UInt8) := do
  let x : FpV adx ← decodeFp mont a
  let y ← decodeFp mont b
  some (FpV.toBytesLE adx mont (Ops.mul x y))

/-- A caller of `fp::exp<8>` (`include/bls12-381/scalar.hpp:251-265`). -/
def fpExp (adx mont : Bool) (a e : List UInt8) : Option (List UInt8) := do
  if e.length ≠ 64 then none
  let x : FpV adx ← decodeFp mont a
  some (FpV.toBytesLE adx mont (Ops.exp x (Scalar.fromBytesLE 8 e)))

/-- A caller of `g1::add` (`src/g.cpp:332-391`). -/
def g1Add (adx mont : Bool) (a b : List UInt8) : Option (List UInt8) := do
  let x : G1 (FpV adx) ← decodeG1 mont a
  let y ← decodeG1 mont b
  some (encodeG1 mont (x.add y))

/-- A caller of `g2::add` (`src/g.cpp:1053-1112`). -/
def g2Add (adx mont : Bool) (a b : List UInt8) : Option (List UInt8) := do
  let x : G2 (FpV adx) ← decodeG2 mont a
  let y ← decodeG2 mont b
  some (encodeG2 mont (x.add y))

/-- A caller of `scalar::fromBytesLE<4>` (`include/bls12-381/scalar.hpp:57-76`) on the `i`-th scalar. -/
def scalarAt (ss : List UInt8) (i : ℕ) : List UInt64 := Scalar.fromBytesLE 4 (span ss (32 * i) 32)

/-- A caller of `g1::weightedSum`, `g2::weightedSum` (`src/g.cpp:472-531`, `:1236-1295`), which takes `g1::scale`, `g2::scale`
(`include/bls12-381/scalar.hpp:330-345`, `:347-362`) for a single point. -/
def sumOf {F : Type} [Ops F] (l : List (Jac F)) (n : ℕ) (ss : List UInt8) : Jac F :=
  match l with
  | [a] => a.scale (scalarAt ss 0)
  | l => Jac.weightedSum l ((List.range n).map (scalarAt ss))

/-- A caller of `g1::fromAffineBytesLE` (`src/g.cpp:76-96`) on `n` points, which then sums. -/
def g1Sum (adx mont : Bool) (n : ℕ) (ps ss : List UInt8) : Option (List UInt8) := do
  if ps.length ≠ 96 * n ∨ ss.length ≠ 32 * n then none
  let l : List (G1 (FpV adx)) ← (List.range n).mapM fun i => decodeG1 mont (span ps (96 * i) 96)
  some (encodeG1 mont (sumOf l n ss))

/-- A caller of `g2::fromAffineBytesLE` (`src/g.cpp:789-809`) on `n` points, which then sums. -/
def g2Sum (adx mont : Bool) (n : ℕ) (ps ss : List UInt8) : Option (List UInt8) := do
  if ps.length ≠ 192 * n ∨ ss.length ≠ 32 * n then none
  let l : List (G2 (FpV adx)) ← (List.range n).mapM fun i => decodeG2 mont (span ps (192 * i) 192)
  some (encodeG2 mont (sumOf l n ss))

/-- A caller of `inCorrectSubgroup` on both points of a pair (`src/g.cpp:276-290`, `:994-1011`). -/
def pairOf (mont : Bool) (ps qs : List UInt8) (i : ℕ) : Option (G1 (FpV adx) × G2 (FpV adx)) := do
  let a ← decodeG1 mont (span ps (96 * i) 96)
  let b ← decodeG2 mont (span qs (192 * i) 192)
  if a.inCorrectSubgroup && b.inCorrectSubgroup then some (a, b) else none

/-- A caller of `pairing::add_pair`, `pairing::calculate` (`src/pairing.cpp:180-198`) and `fp12::toBytesLE`
(`src/fp.cpp:1276-1281`). -/
def pairing (adx mont : Bool) (n : ℕ) (ps qs : List UInt8) : Option (List UInt8) := do
  if ps.length ≠ 96 * n ∨ qs.length ≠ 192 * n then none
  let l : List (G1 (FpV adx) × G2 (FpV adx)) ← (List.range n).mapM (pairOf mont ps qs)
  let r ← Pairing.calculate (l.foldl (fun v x => Pairing.addPair v x.1 x.2) []) none ()
  some (Fp12.toBytesLE (FpV.toBytesLE adx mont) r.1)

/-- A caller of `g1::mapToCurve` (`src/g.cpp:536-545`). -/
def g1Map (adx mont : Bool) (inp : List UInt8) : Option (List UInt8) := do
  let u : FpV adx ← decodeFp mont inp
  some (encodeG1 mont (G1.mapToCurve u))

/-- A caller of `g2::mapToCurve` (`src/g.cpp:1301-1309`). -/
def g2Map (adx mont : Bool) (inp : List UInt8) : Option (List UInt8) := do
  let u : Fp2 (FpV adx) ← decodeFp2 mont inp
  some (encodeG2 mont (G2.mapToCurve u))

end Bls.Host
