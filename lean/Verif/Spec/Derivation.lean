import Verif.Model.Keys
import Verif.Spec.Hash
import Verif.Spec.Params
import Verif.Spec.Carry
import Verif.Spec.Words

/-!
# Chains of unhardened keys

What is derived from a key along a path of indices, and what somebody who knows only the public key can compute about it. `H`
stands for SHA-256.
-/

namespace Bls.Chain

variable (H : List UInt8 → List UInt8) {K : Type} [FpOps K]

/-- The number added to the key for the child `i` of `pk`. It depends on the public key alone. -/
def tweak (pk : G1 K) (i : UInt32) : ℕ := beVal (H (G1.toCompressedBytesBE pk ++ Fips.be 4 i.toNat))

/-- The keys along a path. -/
def secretPath (K : Type) [FpOps K] (sk : List UInt64) (path : List UInt32) : Option (List UInt64) :=
  path.foldlM (Keys.deriveChildSkUnhardened K) sk

/-- The public keys along a path. -/
def publicPath (pk : G1 K) (path : List UInt32) : Option (G1 K) := path.foldlM Keys.deriveChildG1Unhardened pk

/-- What is added to the key along a path, computed from public keys alone. -/
def pathTweak (pk : G1 K) : List UInt32 → ℕ
  | [] => 0
  | i :: path => tweak H pk i + ((Keys.deriveChildG1Unhardened pk i).elim 0 fun d => pathTweak d path)

/-- No addition on the way loses a carry (C40) and no key on the way is zero. -/
def Good (K : Type) [FpOps K] (sk : List UInt64) : List UInt32 → Prop
  | [] => True
  | i :: path => (∀ k, ¬ CarryLost (wordsVal sk) (tweak H (Keys.publicKey sk : G1 K) i % q) k) ∧
    ∀ c, Keys.deriveChildSkUnhardened K sk i = some c → wordsVal c ≠ 0 ∧ Good K c path

end Bls.Chain
