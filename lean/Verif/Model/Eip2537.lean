import Verif.Model.GroupCodec
import Verif.Model.MapToCurve
import Verif.Model.Signatures

/-!
# Callers that offer the precompiled contracts of EIP-2537

The README names EIP-2537 as a standard of the library (`README.md:7`), but the library has no functions on the byte strings
of this standard. This is the code of a caller, which cuts and pads the byte strings and leaves everything else to functions of
the library; `none` is an error. It follows no code in /repo; the functions it calls do.
-/

namespace Bls.Eip2537

variable {adx : Bool}

/-- A caller's test that the 16 upper bytes of a field element are zero. No code in /repo; `fp::fromBytesBE`
(`src/fp.cpp:20-27`) takes the other 48 bytes. -/
def unpad (bs : List UInt8) : Option (List UInt8) :=
  if bs.length ≠ 64 then none
  else if span bs 0 16 = List.replicate 16 0 then some (span bs 16 48) else none

/-- A caller's extension of 48 bytes (`fp::toBytesBE`, `src/fp.cpp:38-42`) to 64. No code in /repo. -/
def pad (bs : List UInt8) : List UInt8 := List.replicate 16 0 ++ bs

/-- A caller of `fp::fromBytesBE` (`src/fp.cpp:20-27`). -/
def decodeFp (bs : List UInt8) : Option (FpV adx) := do
  FpV.fromBytesBE adx true (← unpad bs)

/-- A caller of `fp2::fromBytesBE` (`src/fp.cpp:468-474`), which wants the other order of the coefficients. -/
def decodeFp2 (bs : List UInt8) : Option (Fp2 (FpV adx)) := do
  if bs.length ≠ 128 then none
  let c0 ← unpad (span bs 0 64)
  let c1 ← unpad (span bs 64 64)
  Fp2.fromBytesBE (FpV.fromBytesBE adx true) (c1 ++ c0)

/-- A caller of `g1::fromAffineBytesBE` (`src/g.cpp:54-74`). `check` is `opt.check_valid`, which is `false` by default
(`include/bls12-381/g.hpp:30-31`). -/
def decodeG1 (check : Bool) (bs : List UInt8) : Option (G1 (FpV adx)) := do
  if bs.length ≠ 128 then none
  let x ← unpad (span bs 0 64)
  let y ← unpad (span bs 64 64)
  Jac.fromAffineBytes 48 (FpV.fromBytesBE adx true) FpC.B check (x ++ y)

/-- A caller of `g2::fromAffineBytesBE` (`src/g.cpp:767-787`), `check` as for `decodeG1` (`include/bls12-381/g.hpp:96-97`). -/
def decodeG2 (check : Bool) (bs : List UInt8) : Option (G2 (FpV adx)) := do
  if bs.length ≠ 256 then none
  let x0 ← unpad (span bs 0 64)
  let x1 ← unpad (span bs 64 64)
  let y0 ← unpad (span bs 128 64)
  let y1 ← unpad (span bs 192 64)
  Jac.fromAffineBytes 96 (Fp2.fromBytesBE (FpV.fromBytesBE adx true)) Fp2.B check ((x1 ++ x0) ++ (y1 ++ y0))

/-- A caller of `g1::toAffineBytesBE` with its default option (`src/g.cpp:154-176`). -/
def encodeG1 (a : G1 (FpV adx)) : List UInt8 :=
  let r := Jac.toAffineBytes 48 (FpV.toBytesBE adx true) a
  pad (span r 0 48) ++ pad (span r 48 48)

/-- A caller of `g2::toAffineBytesBE` with its default option (`src/g.cpp:872-894`). -/
def encodeG2 (a : G2 (FpV adx)) : List UInt8 :=
  let r := Jac.toAffineBytes 96 (Fp2.toBytesBE (FpV.toBytesBE adx true)) a
  (pad (span r 48 48) ++ pad (span r 0 48)) ++ (pad (span r 144 48) ++ pad (span r 96 48))

/-- A caller of `g1::add` (`src/g.cpp:332-391`). -/
def g1Add (adx check : Bool) (inp : List UInt8) : Option (List UInt8) := do
  if inp.length ≠ 256 then none
  let a : G1 (FpV adx) ← decodeG1 check (span inp 0 128)
  let b ← decodeG1 check (span inp 128 128)
  some (encodeG1 (a.add b))

/-- A caller of `g2::add` (`src/g.cpp:1053-1112`). -/
def g2Add (adx check : Bool) (inp : List UInt8) : Option (List UInt8) := do
  if inp.length ≠ 512 then none
  let a : G2 (FpV adx) ← decodeG2 check (span inp 0 256)
  let b ← decodeG2 check (span inp 256 256)
  some (encodeG2 (a.add b))

/-- A caller of `g1::inCorrectSubgroup` (`src/g.cpp:276-290`) and `scalar::fromBytesBE` (`include/bls12-381/scalar.hpp:78-97`). -/
def term1 (check : Bool) (inp : List UInt8) (i : ℕ) : Option (G1 (FpV adx) × List UInt64) := do
  let a ← decodeG1 check (span inp (160 * i) 128)
  if a.inCorrectSubgroup then some (a, Scalar.fromBytesBE 4 (span inp (160 * i + 128) 32)) else none

/-- A caller of `g2::inCorrectSubgroup` (`src/g.cpp:994-1011`) and `scalar::fromBytesBE` (`include/bls12-381/scalar.hpp:78-97`). -/
def term2 (check : Bool) (inp : List UInt8) (i : ℕ) : Option (G2 (FpV adx) × List UInt64) := do
  let a ← decodeG2 check (span inp (288 * i) 256)
  if a.inCorrectSubgroup then some (a, Scalar.fromBytesBE 4 (span inp (288 * i + 256) 32)) else none

/-- A caller of `g1::weightedSum` (`src/g.cpp:472-531`). -/
def g1Msm (adx check : Bool) (inp : List UInt8) : Option (List UInt8) := do
  if inp.length = 0 ∨ inp.length % 160 ≠ 0 then none
  let l : List (G1 (FpV adx) × List UInt64) ← (List.range (inp.length / 160)).mapM (term1 check inp)
  some (encodeG1 (Jac.weightedSum (l.map Prod.fst) (l.map Prod.snd)))

/-- A caller of `g2::weightedSum` (`src/g.cpp:1236-1295`). -/
def g2Msm (adx check : Bool) (inp : List UInt8) : Option (List UInt8) := do
  if inp.length = 0 ∨ inp.length % 288 ≠ 0 then none
  let l : List (G2 (FpV adx) × List UInt64) ← (List.range (inp.length / 288)).mapM (term2 check inp)
  some (encodeG2 (Jac.weightedSum (l.map Prod.fst) (l.map Prod.snd)))

/-- A caller of `inCorrectSubgroup` on both points of a pair (`src/g.cpp:276-290`, `:994-1011`). -/
def pairOf (check : Bool) (inp : List UInt8) (i : ℕ) : Option (G1 (FpV adx) × G2 (FpV adx)) := do
  let a ← decodeG1 check (span inp (384 * i) 128)
  let b ← decodeG2 check (span inp (384 * i + 128) 256)
  if a.inCorrectSubgroup && b.inCorrectSubgroup then some (a, b) else none

/-- A caller of `pairing::add_pair`, `pairing::calculate` (`src/pairing.cpp:180-198`) and `fp12::equal`, as the verification
functions call them (`src/signatures.cpp:559`). -/
def pairingCheck (adx check : Bool) (inp : List UInt8) : Option (List UInt8) := do
  if inp.length = 0 ∨ inp.length % 384 ≠ 0 then none
  let l : List (G1 (FpV adx) × G2 (FpV adx)) ← (List.range (inp.length / 384)).mapM (pairOf check inp)
  let r ← Sig.isOneProduct (l.foldl (fun v x => Pairing.addPair v x.1 x.2) [])
  some (List.replicate 31 0 ++ [if r then 1 else 0])

/-- A caller of `g1::mapToCurve` (`src/g.cpp:536-545`). -/
def mapFpToG1 (adx : Bool) (inp : List UInt8) : Option (List UInt8) := do
  let u : FpV adx ← decodeFp inp
  some (encodeG1 (G1.mapToCurve u))

/-- A caller of `g2::mapToCurve` (`src/g.cpp:1301-1309`). -/
def mapFp2ToG2 (adx : Bool) (inp : List UInt8) : Option (List UInt8) := do
  let u : Fp2 (FpV adx) ← decodeFp2 inp
  some (encodeG2 (G2.mapToCurve u))

end Bls.Eip2537
