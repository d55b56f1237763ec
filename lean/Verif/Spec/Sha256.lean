import Verif.Spec.Bytes

/-!
# SHA-256 (FIPS 180-4)

Messages are byte strings. The standard covers messages below `2^64` bits; for longer ones the length field is reduced
modulo `2^64` here.
-/

namespace Bls.Fips

/-- `n` bytes, most significant first, of `v`. -/
def be (n v : ℕ) : List UInt8 := (List.range n).map fun i => UInt8.ofNat (v / 256 ^ (n - 1 - i))

/-- Eight working variables / hash words. -/
structure Words8 where
  (a b c d e f g h : UInt32)
deriving DecidableEq

/-! §3.2, §4.1.2: functions -/

def ROTR (n x : UInt32) : UInt32 := (x >>> n) ||| (x <<< (32 - n))
def Ch (x y z : UInt32) : UInt32 := (x &&& y) ^^^ (~~~x &&& z)
def Maj (x y z : UInt32) : UInt32 := (x &&& y) ^^^ (x &&& z) ^^^ (y &&& z)
def bigSigma0 (x : UInt32) : UInt32 := ROTR 2 x ^^^ ROTR 13 x ^^^ ROTR 22 x
def bigSigma1 (x : UInt32) : UInt32 := ROTR 6 x ^^^ ROTR 11 x ^^^ ROTR 25 x
def sigma0 (x : UInt32) : UInt32 := ROTR 7 x ^^^ ROTR 18 x ^^^ (x >>> 3)
def sigma1 (x : UInt32) : UInt32 := ROTR 17 x ^^^ ROTR 19 x ^^^ (x >>> 10)

/-! §4.2.2, §5.3.3: constants, as defined there from roots of primes -/

/-- The first 64 primes. -/
def primes : List ℕ :=
  [2, 3, 5, 7, 11, 13, 17, 19, 23, 29, 31, 37, 41, 43, 47, 53, 59, 61, 67, 71, 73, 79, 83, 89, 97, 101, 103, 107, 109,
   113, 127, 131, 137, 139, 149, 151, 157, 163, 167, 173, 179, 181, 191, 193, 197, 199, 211, 223, 227, 229, 233, 239,
   241, 251, 257, 263, 269, 271, 277, 281, 283, 293, 307, 311]

/-- `k` is the first 32 bits of the fractional part of the `e`-th root of `n`: `k = ⌊2^32 n^(1/e)⌋ mod 2^32`. -/
def IsFracRoot (e n : ℕ) (k : UInt32) : Prop :=
  ∃ i < 20, (i * 2 ^ 32 + k.toNat) ^ e ≤ n * 2 ^ (32 * e) ∧ n * 2 ^ (32 * e) < (i * 2 ^ 32 + k.toNat + 1) ^ e

/-- A table of the constants `K_t`. -/
def IsK (K : List UInt32) : Prop := List.Forall₂ (IsFracRoot 3) primes K

/-- The initial hash value. -/
def IsH0 (H : Words8) : Prop :=
  List.Forall₂ (IsFracRoot 2) (primes.take 8) [H.a, H.b, H.c, H.d, H.e, H.f, H.g, H.h]

/-! §5.1.1, §5.2.1: padding and parsing -/

/-- Padding: a one bit, zeros up to 448 mod 512 bits, the length in bits as a 64-bit number. -/
def pad (m : List UInt8) : List UInt8 :=
  m ++ [0x80] ++ List.replicate ((119 - m.length % 64) % 64) 0 ++ be 8 (8 * m.length)

/-- Word `j` of block `i`. -/
def word (m : List UInt8) (i j : ℕ) : UInt32 := UInt32.ofNat (beVal ((m.drop (64 * i + 4 * j)).take 4))

/-! §6.2.2: hash computation -/

/-- Message schedule of the block with words `M`. -/
def W (M : ℕ → UInt32) (t : ℕ) : UInt32 :=
  if t < 16 then M t else sigma1 (W M (t - 2)) + W M (t - 7) + sigma0 (W M (t - 15)) + W M (t - 16)
termination_by t

/-- Step 3 for one `t`. -/
def round (k w : UInt32) (s : Words8) : Words8 :=
  let T1 := s.h + bigSigma1 s.e + Ch s.e s.f s.g + k + w
  let T2 := bigSigma0 s.a + Maj s.a s.b s.c
  { h := s.g, g := s.f, f := s.e, e := s.d + T1, d := s.c, c := s.b, b := s.a, a := T1 + T2 }

/-- Rounds `0 … n-1`. -/
def rounds (K : List UInt32) (M : ℕ → UInt32) : ℕ → Words8 → Words8
  | 0, s => s
  | n + 1, s => round (K.getD n 0) (W M n) (rounds K M n s)

/-- One block. -/
def compress (K : List UInt32) (H : Words8) (M : ℕ → UInt32) : Words8 :=
  let s := rounds K M 64 H
  ⟨s.a + H.a, s.b + H.b, s.c + H.c, s.d + H.d, s.e + H.e, s.f + H.f, s.g + H.g, s.h + H.h⟩

/-- Hash value after `n` blocks. -/
def hashAfter (K : List UInt32) (H0 : Words8) (m : List UInt8) : ℕ → Words8
  | 0 => H0
  | n + 1 => compress K (hashAfter K H0 m n) (word m n)

/-- The message digest. -/
def digest (H : Words8) : List UInt8 :=
  be 4 H.a.toNat ++ be 4 H.b.toNat ++ be 4 H.c.toNat ++ be 4 H.d.toNat ++
    be 4 H.e.toNat ++ be 4 H.f.toNat ++ be 4 H.g.toNat ++ be 4 H.h.toNat

/-- `h` is the SHA-256 digest of `m`. -/
def IsSha256 (m h : List UInt8) : Prop :=
  ∃ K H0, IsK K ∧ IsH0 H0 ∧ h = digest (hashAfter K H0 (pad m) ((pad m).length / 64))

end Bls.Fips
