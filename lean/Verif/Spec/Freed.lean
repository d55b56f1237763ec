import Verif.Spec.Keys

/-!
# The blocks of memory of HMAC, HKDF and key generation

Independent of the model: which values of RFC 2104, RFC 5869, KeyGen and EIP-2333 stand one after the other in the blocks of an
implementation that allocates the inner message of every HMAC, the two messages of an expansion and the key material.
-/

namespace Bls.Residue

variable (H : List UInt8 → List UInt8)

/-- RFC 2104: the key, filled up with zeros, `XOR ipad`. -/
def pad (key : List UInt8) : List UInt8 :=
  let k := if key.length > 64 then H key else key
  (k ++ List.replicate (64 - k.length) 0).map (· ^^^ 0x36)

/-- RFC 2104: the message of the inner hash. -/
def inner (key text : List UInt8) : List UInt8 := pad H key ++ text

/-- RFC 5869, section 2.3: the message of which `T(n)` is the HMAC. -/
def message (prk info : List UInt8) (n : ℕ) : List UInt8 := Rfc.T H prk info (n - 1) ++ info ++ [UInt8.ofNat n]

/-- An expansion to `L` bytes: the inner message of every HMAC, the first message and the last one. If there is only one message
the second block still has its first content `rest`. -/
def expansion (prk info : List UInt8) (L : ℕ) (rest : List UInt8) : List (List UInt8) :=
  ((List.range ((L + 31) / 32)).map fun i => inner H prk (message H prk info (i + 1))) ++
    [message H prk info 1, if (L + 31) / 32 = 1 then rest else message H prk info ((L + 31) / 32)]

/-- Extraction and expansion. -/
def hkdf (ikm salt info : List UInt8) (L : ℕ) (rest : List UInt8) : List (List UInt8) :=
  inner H salt ikm :: expansion H (Rfc.extract H salt ikm) info L rest

/-- Key generation with `n + 1` attempts: each attempt, and at the end the key material. -/
def keyGen (ikm : List UInt8) (n : ℕ) : List (List UInt8) :=
  ((List.range (n + 1)).flatMap fun j => hkdf H (ikm ++ Fips.be 1 0) (KeyGen.salt H j) (Fips.be 2 48) 48 []) ++ [ikm ++ Fips.be 1 0]

/-- Hardened derivation: the two Lamport keys, the key generation and its seed. -/
def child (parent index n : ℕ) : List (List UInt8) :=
  hkdf H (Fips.be 32 parent) (Fips.be 4 index) [] 8160 [] ++
    hkdf H ((Fips.be 32 parent).map (255 - ·)) (Fips.be 4 index) [] 8160 [] ++
    keyGen H (KeyGen.lamportPk H parent index) n ++ [KeyGen.lamportPk H parent index]

end Bls.Residue
