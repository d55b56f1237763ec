import Verif.Model.Limbs

/-!
# Byte codecs of word arrays

`std::array<uint64_t, N>` is a `List UInt64` (least significant word first), a byte span a `List UInt8`. The span
lengths are fixed by the types in C++ (`N*8`), so the element accesses are in range.
-/

namespace Bls.Scalar

/-- `scalar::toBytesLE` (`include/bls12-381/scalar.hpp:19-36`): word `i` is written to `out[8i … 8i+7]`, lowest byte
first. -/
def toBytesLE (s : List UInt64) : List UInt8 :=
  s.flatMap fun (w : UInt64) => [w.toUInt8, (w >>> 8).toUInt8, (w >>> 16).toUInt8, (w >>> 24).toUInt8, (w >>> 32).toUInt8,
    (w >>> 40).toUInt8, (w >>> 48).toUInt8, (w >>> 56).toUInt8]

/-- `scalar::toBytesBE` (`include/bls12-381/scalar.hpp:38-55`): `out[8i+j]` is byte `7-j` of word `N-1-i`. -/
def toBytesBE (s : List UInt64) : List UInt8 :=
  s.reverse.flatMap fun (w : UInt64) => [(w >>> 56).toUInt8, (w >>> 48).toUInt8, (w >>> 40).toUInt8, (w >>> 32).toUInt8,
    (w >>> 24).toUInt8, (w >>> 16).toUInt8, (w >>> 8).toUInt8, w.toUInt8]

/-- The combination of eight bytes, lowest first (`include/bls12-381/scalar.hpp:63-67`, `:84-88`). -/
def leWord (b0 b1 b2 b3 b4 b5 b6 b7 : UInt8) : UInt64 :=
  b0.toUInt64 ||| b1.toUInt64 <<< 8 ||| b2.toUInt64 <<< 16 ||| b3.toUInt64 <<< 24 ||| b4.toUInt64 <<< 32 |||
    b5.toUInt64 <<< 40 ||| b6.toUInt64 <<< 48 ||| b7.toUInt64 <<< 56

/-- `scalar::fromBytesLE<N>` (`include/bls12-381/scalar.hpp:57-76`). -/
def fromBytesLE (n : Nat) (bs : List UInt8) : List UInt64 :=
  (List.range n).map fun i =>
    let a := i * 8
    leWord (bs.getD a 0) (bs.getD (a + 1) 0) (bs.getD (a + 2) 0) (bs.getD (a + 3) 0) (bs.getD (a + 4) 0)
      (bs.getD (a + 5) 0) (bs.getD (a + 6) 0) (bs.getD (a + 7) 0)

/-- `scalar::fromBytesBE<N>` (`include/bls12-381/scalar.hpp:78-97`). -/
def fromBytesBE (n : Nat) (bs : List UInt8) : List UInt64 :=
  (List.range n).map fun i =>
    let a := n * 8 - i * 8
    leWord (bs.getD (a - 1) 0) (bs.getD (a - 2) 0) (bs.getD (a - 3) 0) (bs.getD (a - 4) 0) (bs.getD (a - 5) 0)
      (bs.getD (a - 6) 0) (bs.getD (a - 7) 0) (bs.getD (a - 8) 0)

end Bls.Scalar
