import Verif.Model.Word

/-!
# Six-limb values and the field constants they are reduced by
-/

namespace Bls

/-- `class fp { std::array<uint64_t, 6> d; }`: `include/bls12-381/fp.hpp:27-31`.
The limbs are little-endian; the type carries no validity invariant. -/
@[ext]
structure Fp where
  d0 : UInt64
  d1 : UInt64
  d2 : UInt64
  d3 : UInt64
  d4 : UInt64
  d5 : UInt64
deriving DecidableEq, Repr, Inhabited

/-- `fp::MODULUS`: `src/fp.cpp:365-373`. -/
def MODULUS : Fp :=
  ⟨0xb9feffffffffaaab, 0x1eabfffeb153ffff, 0x6730d2a0f6b0f624,
   0x64774b84f38512bf, 0x4b1ba7b6434bacd7, 0x1a0111ea397fe69a⟩

/-- `fp::INP`: `src/fp.cpp:375`. -/
def INP : UInt64 := 0x89f3fffcfffcfffd

/-- `fp::isZero`: `src/fp.cpp:87-90`. -/
def Fp.isZero (x : Fp) : Bool :=
  (x.d5 ||| x.d4 ||| x.d3 ||| x.d2 ||| x.d1 ||| x.d0) == 0

/-- The comparison `z < MODULUS` spelled out at `src/arithmetic.cpp:25` (and 61, 306, 418). -/
def ltModulus (z : Fp) : Bool :=
  z.d5 < MODULUS.d5 || (z.d5 == MODULUS.d5 && (z.d4 < MODULUS.d4 || (z.d4 == MODULUS.d4 &&
  (z.d3 < MODULUS.d3 || (z.d3 == MODULUS.d3 && (z.d2 < MODULUS.d2 || (z.d2 == MODULUS.d2 &&
  (z.d1 < MODULUS.d1 || (z.d1 == MODULUS.d1 && (z.d0 < MODULUS.d0))))))))))

end Bls
