/-! Hexadecimal text. -/

namespace Bls

/-- The value of an ASCII hexadecimal digit, either case. -/
def hexDigit (c : UInt8) : Option Nat :=
  if 48 ≤ c.toNat ∧ c.toNat ≤ 57 then some (c.toNat - 48)
  else if 97 ≤ c.toNat ∧ c.toNat ≤ 102 then some (c.toNat - 87)
  else if 65 ≤ c.toNat ∧ c.toNat ≤ 70 then some (c.toNat - 55)
  else none

/-- The bytes written by pairs of hexadecimal digits, high digit first. -/
inductive HexOf : List UInt8 → List UInt8 → Prop
  | nil : HexOf [] []
  | cons {a b : UInt8} {x y : Nat} {s bs : List UInt8} : hexDigit a = some x → hexDigit b = some y → HexOf s bs →
      HexOf (a :: b :: s) (UInt8.ofNat (16 * x + y) :: bs)

end Bls
