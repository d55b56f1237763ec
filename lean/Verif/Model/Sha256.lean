import Verif.Spec.Sha256

/-!
# `src/sha256.cpp`

`m_state` is kept in the eight-word record `Fips.Words8` (`a` = `m_state[0]`, …, `h` = `m_state[7]`), `m_data` is a
list of 64 bytes.
-/

namespace Bls

/-- The object (`src/sha256.hpp:25-28`). -/
structure Sha256 where
  data : List UInt8
  blocklen : Nat
  bitlen : UInt64
  state : Fips.Words8

namespace Sha256

/-- `K` (`src/sha256.hpp:30-47`). -/
def K : List UInt32 :=
  [0x428a2f98, 0x71374491, 0xb5c0fbcf, 0xe9b5dba5, 0x3956c25b, 0x59f111f1, 0x923f82a4, 0xab1c5ed5,
   0xd807aa98, 0x12835b01, 0x243185be, 0x550c7dc3, 0x72be5d74, 0x80deb1fe, 0x9bdc06a7, 0xc19bf174,
   0xe49b69c1, 0xefbe4786, 0x0fc19dc6, 0x240ca1cc, 0x2de92c6f, 0x4a7484aa, 0x5cb0a9dc, 0x76f988da,
   0x983e5152, 0xa831c66d, 0xb00327c8, 0xbf597fc7, 0xc6e00bf3, 0xd5a79147, 0x06ca6351, 0x14292967,
   0x27b70a85, 0x2e1b2138, 0x4d2c6dfc, 0x53380d13, 0x650a7354, 0x766a0abb, 0x81c2c92e, 0x92722c85,
   0xa2bfe8a1, 0xa81a664b, 0xc24b8b70, 0xc76c51a3, 0xd192e819, 0xd6990624, 0xf40e3585, 0x106aa070,
   0x19a4c116, 0x1e376c08, 0x2748774c, 0x34b0bcb5, 0x391c0cb3, 0x4ed8aa4a, 0x5b9cca4f, 0x682e6ff3,
   0x748f82ee, 0x78a5636f, 0x84c87814, 0x8cc70208, 0x90befffa, 0xa4506ceb, 0xbef9a3f7, 0xc67178f2]

/-- Constructor (`src/sha256.cpp:9-19`). `m_data` starts uninitialised: `junk`. -/
def init (junk : List UInt8) : Sha256 :=
  { data := junk, blocklen := 0, bitlen := 0
    state := ⟨0x6a09e667, 0xbb67ae85, 0x3c6ef372, 0xa54ff53a, 0x510e527f, 0x9b05688c, 0x1f83d9ab, 0x5be0cd19⟩ }

/-- `rotr` (`src/sha256.cpp:60-63`). -/
def rotr (x n : UInt32) : UInt32 := (x >>> n) ||| (x <<< (32 - n))

/-- `choose` (`src/sha256.cpp:65-68`). -/
def choose (e f g : UInt32) : UInt32 := (e &&& f) ^^^ (~~~e &&& g)

/-- `majority` (`src/sha256.cpp:70-73`). -/
def majority (a b c : UInt32) : UInt32 := (a &&& (b ||| c)) ||| (b &&& c)

/-- `sig0` (`src/sha256.cpp:75-78`). -/
def sig0 (x : UInt32) : UInt32 := rotr x 7 ^^^ rotr x 18 ^^^ (x >>> 3)

/-- `sig1` (`src/sha256.cpp:80-83`). -/
def sig1 (x : UInt32) : UInt32 := rotr x 17 ^^^ rotr x 19 ^^^ (x >>> 10)

/-- First 16 words (`src/sha256.cpp:90-94`). -/
def load (d : List UInt8) : List UInt32 :=
  (List.range 16).map fun i =>
    ((d.getD (4 * i) 0).toUInt32 <<< 24) ||| ((d.getD (4 * i + 1) 0).toUInt32 <<< 16) |||
      ((d.getD (4 * i + 2) 0).toUInt32 <<< 8) ||| (d.getD (4 * i + 3) 0).toUInt32

/-- Next `n` words, appended one at a time (`src/sha256.cpp:96-100`). -/
def extend : Nat → List UInt32 → List UInt32
  | 0, m => m
  | n + 1, m =>
    let m := extend n m
    let k := m.length
    m ++ [sig1 (m.getD (k - 2) 0) + m.getD (k - 7) 0 + sig0 (m.getD (k - 15) 0) + m.getD (k - 16) 0]

/-- Loop body `i` (`src/sha256.cpp:107-128`). -/
def round (m : List UInt32) (s : Fips.Words8) (i : Nat) : Fips.Words8 :=
  let maj := majority s.a s.b s.c
  let xorA := rotr s.a 2 ^^^ rotr s.a 13 ^^^ rotr s.a 22
  let ch := choose s.e s.f s.g
  let xorE := rotr s.e 6 ^^^ rotr s.e 11 ^^^ rotr s.e 25
  let sum := m.getD i 0 + K.getD i 0 + s.h + ch + xorE
  let newA := xorA + maj + sum
  let newE := s.d + sum
  ⟨newA, s.a, s.b, s.c, newE, s.e, s.f, s.g⟩

/-- `transform` (`src/sha256.cpp:85-134`). -/
def transform (x : Sha256) : Sha256 :=
  let m := extend 48 (load x.data)
  let s := (List.range 64).foldl (round m) x.state
  { x with state := ⟨x.state.a + s.a, x.state.b + s.b, x.state.c + s.c, x.state.d + s.d,
      x.state.e + s.e, x.state.f + s.f, x.state.g + s.g, x.state.h + s.h⟩ }

/-- Loop body of `update` (`src/sha256.cpp:23-34`). -/
def step (x : Sha256) (b : UInt8) : Sha256 :=
  let x := { x with data := x.data.set x.blocklen b, blocklen := x.blocklen + 1 }
  if x.blocklen = 64 then
    let x := x.transform
    { x with bitlen := x.bitlen + 512, blocklen := 0 }
  else x

/-- `update` (`src/sha256.cpp:21-35`) and the overload for strings (`src/sha256.cpp:37-40`), which passes the bytes on. -/
def update (x : Sha256) (bs : List UInt8) : Sha256 := bs.foldl step x

/-- `pad` (`src/sha256.cpp:136-165`). The padding loop fills `[blocklen+1, end)` with zeros. -/
def pad (x : Sha256) : Sha256 :=
  let «end» := if x.blocklen < 56 then 56 else 64
  let data := x.data.take x.blocklen ++ [0x80] ++ List.replicate («end» - (x.blocklen + 1)) 0 ++ x.data.drop «end»
  let x := { x with data := data }
  let x := if x.blocklen ≥ 56 then
      let x := x.transform
      { x with data := List.replicate 56 0 ++ x.data.drop 56 }
    else x
  let bitlen := x.bitlen + UInt64.ofNat (x.blocklen * 8)
  let data := x.data.take 56 ++
    [(bitlen >>> 56).toUInt8, (bitlen >>> 48).toUInt8, (bitlen >>> 40).toUInt8, (bitlen >>> 32).toUInt8,
     (bitlen >>> 24).toUInt8, (bitlen >>> 16).toUInt8, (bitlen >>> 8).toUInt8, bitlen.toUInt8]
  { x with bitlen := bitlen, data := data }.transform

/-- `revert` (`src/sha256.cpp:167-178`), one word. -/
def revertWord (w : UInt32) : List UInt8 :=
  [0, 8, 16, 24].map fun (i : UInt32) => ((w >>> (24 - i)) &&& 0xff).toUInt8

/-- `revert` (`src/sha256.cpp:167-178`). -/
def revert (s : Fips.Words8) : List UInt8 :=
  revertWord s.a ++ revertWord s.b ++ revertWord s.c ++ revertWord s.d ++
    revertWord s.e ++ revertWord s.f ++ revertWord s.g ++ revertWord s.h

/-- `digest` (`src/sha256.cpp:42-58`). -/
def digest (x : Sha256) : List UInt8 := revert x.pad.state

/-- A fresh object fed with `pieces` and digested, as in `src/signatures.cpp:469-475`.
The initial content of `m_data` is set to zero here; `C35` shows that
it does not matter. -/
def hash (pieces : List (List UInt8)) : List UInt8 := (pieces.foldl update (init (List.replicate 64 0))).digest

end Sha256
end Bls
