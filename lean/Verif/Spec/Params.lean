import Verif.Model.Limbs

/-!
# Specification parameters

The mathematical constants of BLS12-381, independent of the code's tables.
-/

namespace Bls

/-- The base field prime. -/
def p : Nat :=
  0x1A0111EA397FE69A4B1BA7B6434BACD764774B84F38512BF6730D2A0F6B0F6241EABFFFEB153FFFFB9FEFFFFFFFFAAAB

/-- The prime order of the groups. -/
def q : Nat := 0x73eda753299d7d483339d80809a1d80553bda402fffe5bfeffffffff00000001

/-- The integer a limb array stands for. -/
def Fp.val (x : Fp) : Nat :=
  x.d0.toNat + 2 ^ 64 * (x.d1.toNat + 2 ^ 64 * (x.d2.toNat + 2 ^ 64 * (x.d3.toNat +
    2 ^ 64 * (x.d4.toNat + 2 ^ 64 * x.d5.toNat))))

/-- A limb array is valid (canonical) when its integer is below `p`. -/
def Fp.Valid (x : Fp) : Prop := x.val < p

instance (x : Fp) : Decidable x.Valid := inferInstanceAs (Decidable (_ < _))

end Bls
