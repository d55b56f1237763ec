import Verif.Spec.Hash
import Verif.Spec.Params

/-!
# Key generation (draft-irtf-cfrg-bls-signature, KeyGen; EIP-2333)

For a hash function `H` with 32-byte digests. The versions are draft 03 and the EIP of 2020, in which the first salt is
the ASCII string itself; from draft 04 on the string is hashed before its first use.
-/

namespace Bls.KeyGen

variable (H : List UInt8 → List UInt8)

/-- The salts tried in order: the ASCII string `BLS-SIG-KEYGEN-SALT-`, then repeated hashing. -/
def salt : ℕ → List UInt8
  | 0 => "BLS-SIG-KEYGEN-SALT-".toUTF8.toList
  | n + 1 => H (salt n)

/-- `OS2IP(HKDF-Expand(HKDF-Extract(salt, IKM || I2OSP(0, 1)), I2OSP(48, 2), 48)) mod q`. -/
def candidate (ikm : List UInt8) (n : ℕ) : ℕ :=
  beVal (Rfc.expand H (Rfc.extract H (salt H n) (ikm ++ Fips.be 1 0)) (Fips.be 2 48) 48) % q

/-- The key is the first non-zero candidate. -/
def IsKey (ikm : List UInt8) (sk : ℕ) : Prop :=
  ∃ n, (∀ m < n, candidate H ikm m = 0) ∧ candidate H ikm n = sk ∧ sk ≠ 0

/-- EIP-2333 `IKM_to_lamport_SK`: 255 chunks of 32 bytes. -/
def lamportSk (ikm salt : List UInt8) : List (List UInt8) :=
  let okm := Rfc.expand H (Rfc.extract H salt ikm) [] 8160
  (List.range 255).map fun i => (okm.drop (32 * i)).take 32

/-- EIP-2333 `parent_SK_to_lamport_PK`. -/
def lamportPk (parent index : ℕ) : List UInt8 :=
  let salt := Fips.be 4 index
  let ikm := Fips.be 32 parent
  let notIkm := ikm.map (255 - ·)
  H (((lamportSk H ikm salt).map H).flatten ++ ((lamportSk H notIkm salt).map H).flatten)

end Bls.KeyGen
