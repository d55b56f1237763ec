import Verif.Proof.Balance
import Verif.Proof.FpV
import Verif.Proof.Roots

/-!
# C60: how evenly byte strings are reduced
-/

namespace Bls.Props
open Bls Sig

attribute [local irreducible] p q

variable {adx : Bool}

/-- C60: the number of 64-byte strings that hash-to-field reduces to `x` is the same for all field elements, up to one; each
element has at least `2^131` strings. -/
theorem C60_field (x : FpV adx) :
    ({bs : List UInt8 | bs.length = 64 ∧ fieldElement bs 0 = some x}.ncard = 2 ^ 512 / p ∨
      {bs : List UInt8 | bs.length = 64 ∧ fieldElement bs 0 = some x}.ncard = 2 ^ 512 / p + 1) ∧ 2 ^ 131 ≤ 2 ^ 512 / p := by
  obtain ⟨v, hv, rfl⟩ := FpC.exists_nat x
  rw [fieldElement_set v hv]
  have := strings_balanced 64 p v (by decide +kernel) hv
  rw [show 256 ^ 64 = 2 ^ 512 by decide +kernel] at this
  exact ⟨this, by decide +kernel⟩

/-- C60: the same for the 48 bytes from which `secret_key` makes a key below the group order: at least `2^129` strings for
each key. -/
theorem C60_secret_key (sk : List UInt64) (hl : sk.length = 4) (hq : wordsVal sk < q) :
    ({bs : List UInt8 | bs.length = 48 ∧ ∃ c, Division.divnSafe (Scalar.fromBytesBE 6 bs) FpC.Q = some (c, sk)}.ncard =
        2 ^ 384 / q ∨
      {bs : List UInt8 | bs.length = 48 ∧ ∃ c, Division.divnSafe (Scalar.fromBytesBE 6 bs) FpC.Q = some (c, sk)}.ncard =
        2 ^ 384 / q + 1) ∧ 2 ^ 129 ≤ 2 ^ 384 / q := by
  rw [divQ_set 6 (by decide) sk hl]
  have := strings_balanced 48 q _ (by decide +kernel) hq
  rw [show 256 ^ 48 = 2 ^ 384 by decide +kernel] at this
  exact ⟨this, by decide +kernel⟩

/-- The key 3. -/
example : 2 ^ 129 ≤ {bs : List UInt8 | bs.length = 48 ∧
    ∃ c, Division.divnSafe (Scalar.fromBytesBE 6 bs) FpC.Q = some (c, [3, 0, 0, 0])}.ncard := by
  have := C60_secret_key [3, 0, 0, 0] rfl (by decide +kernel)
  omega

/-- C60: the 32 bytes from which the unhardened derivations make the summand are too short for this: the summands below
`2^256 - 2q` have three digests each, the others two. -/
theorem C60_child (sk : List UInt64) (hl : sk.length = 4) (hq : wordsVal sk < q) :
    {bs : List UInt8 | bs.length = 32 ∧ ∃ c, Division.divnSafe (Scalar.fromBytesBE 4 bs) FpC.Q = some (c, sk)}.ncard =
      if wordsVal sk < 2 ^ 256 - 2 * q then 3 else 2 := by
  rw [divQ_set 4 (by decide) sk hl, strings_card 32 q _ (by decide +kernel) hq, show 256 ^ 32 / q = 2 by decide +kernel,
    show 256 ^ 32 % q = 2 ^ 256 - 2 * q by decide +kernel]
  split_ifs <;> rfl

/-- The hypotheses hold for the key 3, which has three digests, and for `q - 1`, which has two. -/
example : {bs : List UInt8 | bs.length = 32 ∧
    ∃ c, Division.divnSafe (Scalar.fromBytesBE 4 bs) FpC.Q = some (c, [3, 0, 0, 0])}.ncard = 3 := by
  rw [C60_child _ rfl (by decide +kernel)]
  decide +kernel
example : {bs : List UInt8 | bs.length = 32 ∧ ∃ c, Division.divnSafe (Scalar.fromBytesBE 4 bs) FpC.Q =
    some (c, [0xffffffff00000000, 0x53bda402fffe5bfe, 0x3339d80809a1d805, 0x73eda753299d7d48])}.ncard = 2 := by
  rw [C60_child _ rfl (by decide +kernel)]
  decide +kernel

end Bls.Props
