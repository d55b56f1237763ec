import Verif.Spec.Keys

/-!
# Key generation of EIP-2333 in its final form (and of draft-irtf-cfrg-bls-signature from version 04 on)

`hkdf_mod_r`: the salt is hashed before each attempt, also before the first. `Spec/Keys.lean` is the version of 2020.
-/

namespace Bls.Eip2333

variable (H : List UInt8 → List UInt8)

/-- The salts: `salt = H("BLS-SIG-KEYGEN-SALT-")`, then repeated hashing. -/
def salt : ℕ → List UInt8
  | 0 => H "BLS-SIG-KEYGEN-SALT-".toUTF8.toList
  | n + 1 => H (salt n)

/-- `OS2IP(HKDF-Expand(HKDF-Extract(salt, IKM || I2OSP(0, 1)), I2OSP(48, 2), 48)) mod q`. -/
def attempt (ikm : List UInt8) (n : ℕ) : ℕ :=
  beVal (Rfc.expand H (Rfc.extract H (salt H n) (ikm ++ Fips.be 1 0)) (Fips.be 2 48) 48) % q

/-- `hkdf_mod_r(IKM)`: the first attempt that is not zero. -/
def HkdfModR (ikm : List UInt8) (sk : ℕ) : Prop :=
  ∃ n, (∀ m < n, attempt H ikm m = 0) ∧ attempt H ikm n = sk ∧ sk ≠ 0

/-- `derive_master_SK(seed)`. -/
def MasterSk (seed : List UInt8) (sk : ℕ) : Prop := 32 ≤ seed.length ∧ HkdfModR H seed sk

/-- `derive_child_SK(parent_SK, index)`. -/
def ChildSk (parent index sk : ℕ) : Prop := HkdfModR H (KeyGen.lamportPk H parent index) sk

end Bls.Eip2333
