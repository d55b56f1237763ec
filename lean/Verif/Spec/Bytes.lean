import Mathlib.Data.List.Basic

/-! The natural number written in bytes. -/

namespace Bls

/-- Little-endian: `∑ bᵢ 256^i`. -/
def leVal : List UInt8 → Nat
  | [] => 0
  | b :: bs => b.toNat + 256 * leVal bs

/-- Big-endian: the first byte is the most significant one. -/
def beVal (bs : List UInt8) : Nat := bs.foldl (fun a b => 256 * a + b.toNat) 0

end Bls
