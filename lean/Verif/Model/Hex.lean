/-!
# Hexadecimal text

Strings are lists of bytes. `char` is signed on x86-64, so `s[j] % 32` is the C++ remainder (sign of the dividend) of
the signed value.
-/

namespace Bls

/-- `(c % 32 + 9) % 25` on a `char`, an `int` expression (`src/scalar.cpp:27`,
`include/bls12-381/scalar.hpp:392`). -/
def hexNibble (c : UInt8) : Int := (c.toInt8.toInt.tmod 32 + 9).tmod 25

/-- One byte: the `int` value is converted to `uint8_t` modulo 256 (`src/scalar.cpp:27`). -/
def hexByte (a b : UInt8) : UInt8 := UInt8.ofInt (hexNibble a * 16 + hexNibble b)

/-- The loop of `hexToBytes` (`src/scalar.cpp:25-28`) from position `j`, `n` bytes left. -/
def hexLoop : List UInt8 → List UInt8
  | a :: b :: s => hexByte a b :: hexLoop s
  | _ => []

/-- `hexToBytes(std::string_view)` (`src/scalar.cpp:8-31`). `none`: `s[0]` or `s[1]` is read past the end (undefined
behaviour); `s[1]` is only read when `s[0] == '0'`. The result for odd lengths is the empty vector. -/
def hexToBytes (s : List UInt8) : Option (List UInt8) :=
  match s with
  | [] => none
  | [c] => if c = 48 then none else some []
  | c :: d :: t =>
    let body := if c = 48 ∧ d = 120 then t else c :: d :: t
    if (c :: d :: t).length % 2 ≠ 0 then some [] else some (hexLoop body)

/-- `hexmap` (`src/scalar.cpp:35`, `include/bls12-381/scalar.hpp:367`). -/
def hexmap : List UInt8 := [48, 49, 50, 51, 52, 53, 54, 55, 56, 57, 97, 98, 99, 100, 101, 102]

/-- `bytesToHex` (`src/scalar.cpp:33-45`) and the template `bytesToHex<N>` (`include/bls12-381/scalar.hpp:364-377`,
same text). -/
def bytesToHex (bs : List UInt8) : List UInt8 :=
  48 :: 120 :: bs.flatMap fun (b : UInt8) => [hexmap.getD ((b &&& 0xF0) >>> 4).toNat 0, hexmap.getD (b &&& 0x0F).toNat 0]

/-- The loop of the template `hexToBytes<N>` (`include/bls12-381/scalar.hpp:390-393`) on the characters from position
`j`. `std::string` allows reading the terminating zero at index `size()`; anything beyond is undefined behaviour
(`none`). `s` includes the terminating zero. -/
def hexLoopN : Nat → List UInt8 → Option (List UInt8)
  | 0, _ => some []
  | n + 1, a :: b :: s =>
    match hexLoopN n s with
    | some r => some (hexByte a b :: r)
    | none => none
  | _ + 1, _ => none

/-- `hexToBytes<N>(const std::string&)` (`include/bls12-381/scalar.hpp:380-401`). For the empty string `s[0]` is the
terminating zero, so `s[1]` is not read; for one character `s[1]` is the terminating zero. -/
def hexToBytesN (n : Nat) (s : List UInt8) : Option (List UInt8) :=
  match s ++ [0] with
  | c :: d :: t => hexLoopN n (if c = 48 ∧ d = 120 then t else c :: d :: t)
  | t => hexLoopN n t

/-- `s << setw(2) << unsigned` on a stream with `hex` and `setfill('0')` (`src/sha256.cpp:183`, `:187`): the lower-case digits
without leading zeros, filled up to two characters. -/
def streamHex (n : Nat) : List UInt8 :=
  let digits := (Nat.toDigits 16 n).map fun c => UInt8.ofNat c.toNat
  List.replicate (2 - digits.length) 48 ++ digits

/-- `sha256::toString` (`src/sha256.cpp:180-191`). -/
def digestToString (digest : List UInt8) : List UInt8 := digest.flatMap fun b => streamHex b.toNat

end Bls
