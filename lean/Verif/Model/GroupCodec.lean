import Verif.Model.Codec
import Verif.Model.Group
import Verif.Model.FpV

/-!
# Byte codecs of `g1` and `g2`

The uncompressed codecs cut and paste coordinates and are written over the coordinate codec (`dec`, `enc`) and its
length `n` (48 for `g1`, 96 for `g2`). The compressed codecs differ between the classes.
-/

namespace Bls

/-- `fp::fromBytesBE` with `check_valid = true` (`src/fp.cpp:20-27`) on canonical values. The second test only
provides the proof; `FpV.fromBytesBE_val` shows that it never rejects. -/
def FpV.fromBytesBE (adx mont : Bool) (bs : List UInt8) : Option (FpV adx) :=
  (Fp.fromBytesBE adx true mont bs).bind fun e => if h : e.val < p then some ⟨e, h⟩ else none

/-- `fp::fromBytesLE` with `check_valid = true` (`src/fp.cpp:29-36`) on canonical values. -/
def FpV.fromBytesLE (adx mont : Bool) (bs : List UInt8) : Option (FpV adx) :=
  (Fp.fromBytesLE adx true mont bs).bind fun e => if h : e.val < p then some ⟨e, h⟩ else none

/-- `fp::toBytesBE` (`src/fp.cpp:38-42`). -/
def FpV.toBytesBE (adx mont : Bool) (x : FpV adx) : List UInt8 := x.1.toBytesBE adx mont

/-- `fp::toBytesLE` (`src/fp.cpp:44-48`). -/
def FpV.toBytesLE (adx mont : Bool) (x : FpV adx) : List UInt8 := x.1.toBytesLE adx mont

namespace Jac

variable {F : Type} [Ops F]

/-- `g1::fromJacobianBytesBE/LE` (`src/g.cpp:20-52`), `g2::fromJacobianBytesBE/LE` (`src/g.cpp:733-765`). The
coordinate decoder always checks validity; `check` is the caller's `opt.check_valid`, which only controls the
on-curve test. -/
def fromJacobianBytes (n : Nat) (dec : List UInt8 → Option F) (b : F) (check : Bool) (bs : List UInt8) :
    Option (Jac F) :=
  match dec (span bs 0 n), dec (span bs n n), dec (span bs (2 * n) n) with
  | some x, some y, some z =>
    let p : Jac F := ⟨x, y, z⟩
    if check && !p.isOnCurve b then none else some p
  | _, _, _ => none

/-- `g1::fromAffineBytesBE/LE` (`src/g.cpp:54-96`), `g2::fromAffineBytesBE/LE` (`src/g.cpp:767-809`). -/
def fromAffineBytes (n : Nat) (dec : List UInt8 → Option F) (b : F) (check : Bool) (bs : List UInt8) :
    Option (Jac F) :=
  match dec (span bs 0 n), dec (span bs n n) with
  | some x, some y =>
    if Ops.isZero x && Ops.isZero y then some zero
    else
      let p : Jac F := ⟨x, y, Ops.one⟩
      if check && !p.isOnCurve b then none else some p
  | _, _ => none

/-- `g1::toJacobianBytesBE/LE` (`src/g.cpp:140-152`, `:199-211`), `g2::toJacobianBytesBE/LE`
(`src/g.cpp:858-870`, `:918-930`). -/
def toJacobianBytes (enc : F → List UInt8) (a : Jac F) : List UInt8 := enc a.x ++ (enc a.y ++ enc a.z)

/-- `g1::toAffineBytesBE/LE` (`src/g.cpp:154-176`, `:213-225`), `g2::toAffineBytesBE/LE`
(`src/g.cpp:872-894`, `:932-944`). -/
def toAffineBytes (n : Nat) (enc : F → List UInt8) (a : Jac F) : List UInt8 :=
  if a.isZero then List.replicate (2 * n) 0
  else
    let r := a.affine
    enc r.x ++ enc r.y

end Jac

section

variable {K : Type} [FpOps K]

/-- `fp::fromBytesBE` with the default options (`src/fp.cpp:20-27`, `include/bls12-381/fp.hpp:36-37`). -/
def FpC.fromBytesBE (bs : List UInt8) : Option K :=
  let e := Fp.ofWords (Scalar.fromBytesBE 6 bs)
  if !e.isValid then none else some (FpOps.toMont e)

/-- `fp::toBytesBE` with the default option (`src/fp.cpp:38-42`, `:50-54`). -/
def FpC.toBytesBE (x : K) : List UInt8 := Scalar.toBytesBE (FpOps.fromMont x).words

/-- The three statements on `p.x` (`p.x.c1` for `g2`) in the compressed decoders (`src/g.cpp:113-116`, `:826-834`):
read 48 bytes, clear the three top bits, convert to Montgomery form. The test `isValid()` that follows
(`src/g.cpp:117-120`, `:835-838`) examines the result of `toMont`, which is always canonical (theorem
`C28_validity_check_vacuous`), so it is not repeated here. -/
def FpC.fromMasked (bs : List UInt8) : K :=
  let e := Fp.ofWords (Scalar.fromBytesBE 6 bs)
  FpOps.toMont { e with d5 := e.d5 &&& 0x1FFFFFFFFFFFFFFF }

/-- `g1::fromCompressedBytesBE` (`src/g.cpp:98-138`). -/
def G1.fromCompressedBytesBE (bs : List UInt8) : Option (G1 K) :=
  let b0 := bs.getD 0 0
  if (b0 >>> 7) &&& 1 != 1 then none
  else if (b0 >>> 6) &&& 1 == 1 then some Jac.zero
  else
    let ysign := (b0 >>> 5) &&& 1 == 1
    let x : K := FpC.fromMasked bs
    let y := Ops.sqr x
    let y := Ops.mul y x
    let y := Ops.add y FpC.B
    let r := FpC.sqrt y
    if !r.2 then none
    else
      let y := r.1
      let y := if FpC.lexLargest y ^^ ysign then Ops.neg y else y
      some ⟨x, y, Ops.one⟩

/-- `g1::toCompressedBytesBE` (`src/g.cpp:178-197`, `:227-232`). -/
def G1.toCompressedBytesBE (a : G1 K) : List UInt8 :=
  let p := a.affine
  if Ops.isZero p.x && Ops.isZero p.y then (List.replicate 48 0).modify 0 (· ||| 0xC0)
  else
    let out := FpC.toBytesBE p.x
    let out := if FpC.lexLargest p.y then out.modify 0 (· ||| 0x20) else out
    out.modify 0 (· ||| 0x80)

/-- `g2::fromCompressedBytesBE` (`src/g.cpp:811-856`). -/
def G2.fromCompressedBytesBE (bs : List UInt8) : Option (G2 K) :=
  let b0 := bs.getD 0 0
  if (b0 >>> 7) &&& 1 != 1 then none
  else if (b0 >>> 6) &&& 1 == 1 then some Jac.zero
  else
    let ysign := (b0 >>> 5) &&& 1 == 1
    match FpC.fromBytesBE (span bs 48 48) with
    | none => none
    | some (c0 : K) =>
      let x : Fp2 K := ⟨c0, FpC.fromMasked (span bs 0 48)⟩
      let y := Fp2.sqr x
      let y := Fp2.mul y x
      let y := Fp2.add y Fp2.B
      let r := Fp2.sqrt y
      if !r.2 then none
      else
        let y := r.1
        let y := if Fp2.lexLargest y ^^ ysign then Fp2.neg y else y
        some ⟨x, y, Fp2.one⟩

/-- `g2::toCompressedBytesBE` (`src/g.cpp:896-916`, `:946-951`). -/
def G2.toCompressedBytesBE (a : G2 K) : List UInt8 :=
  let p := a.affine
  if Ops.isZero p.x && Ops.isZero p.y then (List.replicate 96 0).modify 0 (· ||| 0xC0)
  else
    let out := FpC.toBytesBE p.x.c1 ++ FpC.toBytesBE p.x.c0
    let out := if Fp2.lexLargest p.y then out.modify 0 (· ||| 0x20) else out
    out.modify 0 (· ||| 0x80)

end

end Bls
