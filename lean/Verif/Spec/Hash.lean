import Verif.Spec.Sha256

/-!
# HMAC (RFC 2104), HKDF (RFC 5869), expand_message_xmd (RFC 9380, section 5.3.1)

For a hash function `H` with 64-byte blocks and 32-byte digests.
-/

namespace Bls.Rfc

/-- RFC 2104. -/
def hmac (H : List UInt8 → List UInt8) (key text : List UInt8) : List UInt8 :=
  let k := if key.length > 64 then H key else key
  let k0 := k ++ List.replicate (64 - k.length) 0
  H (k0.map (· ^^^ 0x5c) ++ H (k0.map (· ^^^ 0x36) ++ text))

/-- RFC 5869, section 2.2. -/
def extract (H : List UInt8 → List UInt8) (salt ikm : List UInt8) : List UInt8 := hmac H salt ikm

/-- RFC 5869, section 2.3: `T(n)`. -/
def T (H : List UInt8 → List UInt8) (prk info : List UInt8) : ℕ → List UInt8
  | 0 => []
  | n + 1 => hmac H prk (T H prk info n ++ info ++ [UInt8.ofNat (n + 1)])

/-- RFC 5869, section 2.3: the first `L` bytes of `T(1) | … | T(N)`, `N = ⌈L/32⌉`. -/
def expand (H : List UInt8 → List UInt8) (prk info : List UInt8) (L : ℕ) : List UInt8 :=
  (((List.range ((L + 31) / 32)).map fun i => T H prk info (i + 1)).flatten).take L

/-- RFC 9380, 5.3.1: `b_i` for `i ≥ 1` (`b_{n+1}`). -/
def xmdBlock (H : List UInt8 → List UInt8) (b0 dst' : List UInt8) : ℕ → List UInt8
  | 0 => H (b0 ++ [1] ++ dst')
  | n + 1 => H (List.zipWith (· ^^^ ·) b0 (xmdBlock H b0 dst' n) ++ [UInt8.ofNat (n + 2)] ++ dst')

/-- RFC 9380, 5.3.1. `none`: abort. -/
def expandMessageXmd (H : List UInt8 → List UInt8) (msg dst : List UInt8) (len : ℕ) : Option (List UInt8) :=
  let ell := (len + 31) / 32
  if ell > 255 ∨ len > 65535 ∨ dst.length > 255 then none
  else
    let dst' := dst ++ Fips.be 1 dst.length
    let b0 := H (List.replicate 64 0 ++ msg ++ Fips.be 2 len ++ Fips.be 1 0 ++ dst')
    some ((((List.range ell).map (xmdBlock H b0 dst')).flatten).take len)

end Bls.Rfc
