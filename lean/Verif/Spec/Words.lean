import Verif.Model.Limbs

/-! The natural number written in 64-bit words, least significant first. -/

namespace Bls

/-- `∑ wᵢ 2^(64 i)`. -/
def wordsVal : List UInt64 → Nat
  | [] => 0
  | w :: ws => w.toNat + 2 ^ 64 * wordsVal ws

end Bls
