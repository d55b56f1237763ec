import Verif.Spec.Params
import Verif.Spec.Bytes

/-!
# What a codec should do
-/

namespace Bls

/-- `dec` and `enc` are mutually inverse between the byte strings of length `n` with property `ok` and the values
with property `V`; strings without `ok` are rejected. -/
structure IsCodec {F : Type} (n : Nat) (dec : List UInt8 → Option F) (enc : F → List UInt8) (V : F → Prop)
    (ok : List UInt8 → Prop) : Prop where
  enc_length : ∀ x, V x → (enc x).length = n
  dec_enc : ∀ x, V x → dec (enc x) = some x
  accept : ∀ bs, bs.length = n → ((dec bs).isSome ↔ ok bs)
  enc_dec : ∀ bs x, bs.length = n → dec bs = some x → V x ∧ enc x = bs

/-- The `i`-th group of 48 bytes. -/
def chunk (bs : List UInt8) (i : Nat) : List UInt8 := (bs.drop (48 * i)).take 48

/-- `k` groups of 48 bytes, each the big-endian form of a number below `p`. -/
def CanonicalBE (k : Nat) (bs : List UInt8) : Prop := ∀ i < k, beVal (chunk bs i) < p

/-- `k` groups of 48 bytes, each the little-endian form of a number below `p`. -/
def CanonicalLE (k : Nat) (bs : List UInt8) : Prop := ∀ i < k, leVal (chunk bs i) < p

end Bls
