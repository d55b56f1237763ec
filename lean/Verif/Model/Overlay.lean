import Verif.Model.GroupCodec

/-!
# Serialisation into memory that overlaps the object

`Model/Codec.lean` and `Model/GroupCodec.lean` take the object as a value. Here the object and the span `out` lie in one memory of
bytes, in which they may overlap in any way: an access through `uint8_t` may alias every object. Every read of the object is a
read of the memory at that moment. The return value of a `toBytes…` without `out`, and that of `fromMont()`, is a temporary, which
no write through `out` reaches.

Simplifications: addresses are natural numbers; the words are stored in little-endian order, as on every processor for which
`src/arithmetic.s` can be assembled; there is no padding in the classes (arrays of `uint64_t`).
-/

namespace Bls.Overlay

/-- The memory that holds the objects and the spans of the caller of `include/bls12-381/scalar.hpp:19-97`, by byte. -/
abbrev Mem := Nat → UInt8

/-- The bytes `bs` are stored from `a` on: `memcpy` from a temporary (as in `src/fp.cpp:486-487`), or an assignment to `out[…]`
(`include/bls12-381/scalar.hpp:26`, `:45`). -/
def store (m : Mem) (a : Nat) (bs : List UInt8) : Mem := fun x => if a ≤ x ∧ x < a + bs.length then bs.getD (x - a) 0 else m x

/-- A read of a `uint64_t` (`in[i]`, `include/bls12-381/scalar.hpp:26`): eight bytes, the lowest first. -/
def word (m : Mem) (a : Nat) : UInt64 := UInt64.ofNat ((List.range 8).foldr (fun j t => (m (a + j)).toNat + 256 * t) 0)

/-- An assignment to a `uint64_t` (`out[i] = …`, `include/bls12-381/scalar.hpp:63`, `:84`). -/
def setWord (m : Mem) (a : Nat) (w : UInt64) : Mem := store m a ((List.range 8).map fun j => UInt8.ofNat (w.toNat / 256 ^ j))

/-- `scalar::toBytesLE<N>(in, out)` (`include/bls12-381/scalar.hpp:19-29`). -/
def toBytesLE (N inp out : Nat) (m : Mem) : Mem :=
  (List.range N).foldl (fun m i =>
    (List.range 8).foldl (fun m j =>
      store m (out + (i * 8 + j)) [(word m (inp + 8 * i) >>> UInt64.ofNat (8 * j)).toUInt8]) m) m

/-- `scalar::toBytesBE<N>(in, out)` (`include/bls12-381/scalar.hpp:38-48`). -/
def toBytesBE (N inp out : Nat) (m : Mem) : Mem :=
  (List.range N).foldl (fun m i =>
    (List.range 8).foldl (fun m j =>
      store m (out + (i * 8 + j)) [(word m (inp + 8 * (N - 1 - i)) >>> UInt64.ofNat (56 - 8 * j)).toUInt8]) m) m

/-- `scalar::fromBytesLE<N>(in, out)` (`include/bls12-381/scalar.hpp:57-69`). -/
def fromBytesLE (N inp out : Nat) (m : Mem) : Mem :=
  (List.range N).foldl (fun m i =>
    let a := inp + i * 8
    setWord m (out + 8 * i) (Scalar.leWord (m a) (m (a + 1)) (m (a + 2)) (m (a + 3)) (m (a + 4)) (m (a + 5)) (m (a + 6))
      (m (a + 7)))) m

/-- `scalar::fromBytesBE<N>(in, out)` (`include/bls12-381/scalar.hpp:78-90`). -/
def fromBytesBE (N inp out : Nat) (m : Mem) : Mem :=
  (List.range N).foldl (fun m i =>
    let a := N * 8 - i * 8
    setWord m (out + 8 * i) (Scalar.leWord (m (inp + (a - 1))) (m (inp + (a - 2))) (m (inp + (a - 3))) (m (inp + (a - 4)))
      (m (inp + (a - 5))) (m (inp + (a - 6))) (m (inp + (a - 7))) (m (inp + (a - 8))))) m

/-- The `fp` at `a` (`include/bls12-381/fp.hpp:31`). -/
def fpAt (m : Mem) (a : Nat) : Fp :=
  ⟨word m a, word m (a + 8), word m (a + 16), word m (a + 24), word m (a + 32), word m (a + 40)⟩

/-- The `fp2` at `a`: `c0`, `c1` (`include/bls12-381/fp.hpp:118-119`). -/
def fp2At (m : Mem) (a : Nat) : Fp2 Fp := ⟨fpAt m a, fpAt m (a + 48)⟩

/-- The `fp6` at `a`: `c0`, `c1`, `c2` (`include/bls12-381/fp.hpp:178-180`). -/
def fp6At (m : Mem) (a : Nat) : Fp6 Fp := ⟨fp2At m a, fp2At m (a + 96), fp2At m (a + 192)⟩

/-- The `fp12` at `a`: `c0`, `c1` (`include/bls12-381/fp.hpp:229-230`). -/
def fp12At (m : Mem) (a : Nat) : Fp12 Fp := ⟨fp6At m a, fp6At m (a + 288)⟩

/-- The `g1` at `a`: `x`, `y`, `z` (`include/bls12-381/g.hpp:19-21`). -/
def g1At (m : Mem) (a : Nat) : Jac Fp := ⟨fpAt m a, fpAt m (a + 48), fpAt m (a + 96)⟩

/-- The `g2` at `a`: `x`, `y`, `z` (`include/bls12-381/g.hpp:85-87`). -/
def g2At (m : Mem) (a : Nat) : Jac (Fp2 Fp) := ⟨fp2At m a, fp2At m (a + 96), fp2At m (a + 192)⟩

/-- `fp::toBytesBE(out, fm)` (`src/fp.cpp:38-42`). -/
def fpBE (adx mont : Bool) (this out : Nat) (m : Mem) : Mem :=
  if mont then store m out (Scalar.toBytesBE ((fpAt m this).fromMont adx).words) else toBytesBE 6 this out m

/-- `fp::toBytesLE(out, fm)` (`src/fp.cpp:44-48`). -/
def fpLE (adx mont : Bool) (this out : Nat) (m : Mem) : Mem :=
  if mont then store m out (Scalar.toBytesLE ((fpAt m this).fromMont adx).words) else toBytesLE 6 this out m

/-- `fp2::toBytesBE(out, fm)` (`src/fp.cpp:484-488`). -/
def fp2BE (adx mont : Bool) (this out : Nat) (m : Mem) : Mem :=
  let m := store m out ((fpAt m (this + 48)).toBytesBE adx mont)
  store m (out + 48) ((fpAt m this).toBytesBE adx mont)

/-- `fp2::toBytesLE(out, fm)` (`src/fp.cpp:490-494`). -/
def fp2LE (adx mont : Bool) (this out : Nat) (m : Mem) : Mem :=
  let m := store m out ((fpAt m this).toBytesLE adx mont)
  store m (out + 48) ((fpAt m (this + 48)).toBytesLE adx mont)

/-- `fp6::toBytesBE(out, fm)` (`src/fp.cpp:846-851`). -/
def fp6BE (adx mont : Bool) (this out : Nat) (m : Mem) : Mem :=
  let m := store m out ((fp2At m (this + 192)).toBytesBE (Fp.toBytesBE adx mont))
  let m := store m (out + 96) ((fp2At m (this + 96)).toBytesBE (Fp.toBytesBE adx mont))
  store m (out + 192) ((fp2At m this).toBytesBE (Fp.toBytesBE adx mont))

/-- `fp6::toBytesLE(out, fm)` (`src/fp.cpp:853-858`). -/
def fp6LE (adx mont : Bool) (this out : Nat) (m : Mem) : Mem :=
  let m := store m out ((fp2At m this).toBytesLE (Fp.toBytesLE adx mont))
  let m := store m (out + 96) ((fp2At m (this + 96)).toBytesLE (Fp.toBytesLE adx mont))
  store m (out + 192) ((fp2At m (this + 192)).toBytesLE (Fp.toBytesLE adx mont))

/-- `fp12::toBytesBE(out, fm)` (`src/fp.cpp:1257-1261`). -/
def fp12BE (adx mont : Bool) (this out : Nat) (m : Mem) : Mem :=
  let m := store m out ((fp6At m (this + 288)).toBytesBE (Fp.toBytesBE adx mont))
  store m (out + 288) ((fp6At m this).toBytesBE (Fp.toBytesBE adx mont))

/-- `fp12::toBytesLE(out, fm)` (`src/fp.cpp:1263-1267`). -/
def fp12LE (adx mont : Bool) (this out : Nat) (m : Mem) : Mem :=
  let m := store m out ((fp6At m this).toBytesLE (Fp.toBytesLE adx mont))
  store m (out + 288) ((fp6At m (this + 288)).toBytesLE (Fp.toBytesLE adx mont))

/-- `g1::toJacobianBytesBE(out, fm)` (`src/g.cpp:140-145`) and `g1::toJacobianBytesLE(out, fm)` (`:147-152`); `enc` is the
`toBytesBE` or the `toBytesLE` of `fp` that returns an array. -/
def g1Jacobian (enc : Fp → List UInt8) (this out : Nat) (m : Mem) : Mem :=
  let m := store m out (enc (fpAt m this))
  let m := store m (out + 48) (enc (fpAt m (this + 48)))
  store m (out + 96) (enc (fpAt m (this + 96)))

/-- `g2::toJacobianBytesBE(out, fm)` (`src/g.cpp:858-863`) and `g2::toJacobianBytesLE(out, fm)` (`:865-870`); `enc` is that of
`fp2`. -/
def g2Jacobian (enc : Fp2 Fp → List UInt8) (this out : Nat) (m : Mem) : Mem :=
  let m := store m out (enc (fp2At m this))
  let m := store m (out + 96) (enc (fp2At m (this + 96)))
  store m (out + 192) (enc (fp2At m (this + 192)))

end Bls.Overlay
