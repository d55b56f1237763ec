import Verif.Model.Overlay

/-!
# Affine and compressed serialisation into memory that overlaps the point

As in `Model/Overlay.lean`, for the functions that first make a local copy in affine form. `obj` reads the point in the memory at
that moment.
-/

namespace Bls.Overlay

variable {F K : Type} [Ops F] [FpOps K]

/-- The `fp` at `a` (`include/bls12-381/fp.hpp:31`), if it is less than the modulus. Simplified: the functions below are modelled
for such coordinates only. -/
def fpVAt (adx : Bool) (m : Mem) (a : Nat) : Option (FpV adx) := if h : (fpAt m a).val < p then some ⟨fpAt m a, h⟩ else none

/-- The `fp2` at `a` (`include/bls12-381/fp.hpp:118-119`). -/
def fp2VAt (adx : Bool) (m : Mem) (a : Nat) : Option (Fp2 (FpV adx)) :=
  (fpVAt adx m a).bind fun c0 => (fpVAt adx m (a + 48)).map fun c1 => ⟨c0, c1⟩

/-- The `g1` at `a` (`include/bls12-381/g.hpp:19-21`). -/
def g1VAt (adx : Bool) (m : Mem) (a : Nat) : Option (G1 (FpV adx)) :=
  (fpVAt adx m a).bind fun x => (fpVAt adx m (a + 48)).bind fun y => (fpVAt adx m (a + 96)).map fun z => ⟨x, y, z⟩

/-- The `g2` at `a` (`include/bls12-381/g.hpp:85-87`). -/
def g2VAt (adx : Bool) (m : Mem) (a : Nat) : Option (G2 (FpV adx)) :=
  (fp2VAt adx m a).bind fun x => (fp2VAt adx m (a + 96)).bind fun y => (fp2VAt adx m (a + 192)).map fun z => ⟨x, y, z⟩

/-- `g1::toAffineBytesBE(out, fm)` (`src/g.cpp:154-164`), `g1::toAffineBytesLE(out, fm)` (`:166-176`),
`g2::toAffineBytesBE(out, fm)` (`:872-882`) and `g2::toAffineBytesLE(out, fm)` (`:884-894`); `n` is the size of a coordinate and `enc`
the function of `fp` or `fp2` that returns an array. -/
def affineBytes (n : Nat) (enc : F → List UInt8) (obj : Mem → Option (Jac F)) (out : Nat) (m : Mem) : Option Mem := do
  let t ← obj m
  if t.isZero then return store m out (List.replicate (2 * n) 0)
  let t ← obj m
  let r := t.affine
  let m := store m out (enc r.x)
  let m := store m (out + n) (enc r.y)
  return m

/-- `out[0] |= b` (`src/g.cpp:186`, `:193`, `:196`, `:904`, `:912`, `:915`). -/
def orFirst (m : Mem) (out : Nat) (b : UInt8) : Mem := store m out [m out ||| b]

/-- `g1::toCompressedBytesBE(out)` (`src/g.cpp:178-197`). -/
def g1Compressed (obj : Mem → Option (G1 K)) (out : Nat) (m : Mem) : Option Mem := do
  let t ← obj m
  let p := t.affine
  if Ops.isZero p.x && Ops.isZero p.y then
    let m := store m out (List.replicate 48 0)
    return orFirst m out 0xC0
  let m := store m out (FpC.toBytesBE p.x)
  let m := if FpC.lexLargest p.y then orFirst m out 0x20 else m
  return orFirst m out 0x80

/-- `g2::toCompressedBytesBE(out)` (`src/g.cpp:896-916`). -/
def g2Compressed (obj : Mem → Option (G2 K)) (out : Nat) (m : Mem) : Option Mem := do
  let t ← obj m
  let p := t.affine
  if Ops.isZero p.x && Ops.isZero p.y then
    let m := store m out (List.replicate 96 0)
    return orFirst m out 0xC0
  let m := store m out (FpC.toBytesBE p.x.c1)
  let m := store m (out + 48) (FpC.toBytesBE p.x.c0)
  let m := if Fp2.lexLargest p.y then orFirst m out 0x20 else m
  return orFirst m out 0x80

end Bls.Overlay
