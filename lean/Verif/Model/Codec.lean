import Verif.Model.Bytes
import Verif.Model.Tower
import Verif.Model.Fp

/-!
# Byte codecs of the field classes

`fp` on limbs with both options. The tower codecs only cut and paste coordinates; they are written over the
coordinate codec, so that they serve for limb arrays (`K = Fp`) and for canonical values (`K = FpV adx`).
-/

namespace Bls

namespace Fp

/-- The constructor of `fp` from `std::array<uint64_t, 6>` (`src/fp.cpp:12-14`). -/
def ofWords (s : List UInt64) : Fp := ⟨s.getD 0 0, s.getD 1 0, s.getD 2 0, s.getD 3 0, s.getD 4 0, s.getD 5 0⟩

/-- The member `d` of `fp` (`include/bls12-381/fp.hpp:31`) as an array. -/
def words (x : Fp) : List UInt64 := [x.d0, x.d1, x.d2, x.d3, x.d4, x.d5]

/-- `fp::fromBytesBE` (`src/fp.cpp:20-27`); `check` and `mont` are the members of `conv_opt`
(`include/bls12-381/fp.hpp:16-19`). -/
def fromBytesBE (adx check mont : Bool) (bs : List UInt8) : Option Fp :=
  let e := ofWords (Scalar.fromBytesBE 6 bs)
  if check && !e.isValid then none else if mont then some (e.toMont adx) else some e

/-- `fp::fromBytesLE` (`src/fp.cpp:29-36`). -/
def fromBytesLE (adx check mont : Bool) (bs : List UInt8) : Option Fp :=
  let e := ofWords (Scalar.fromBytesLE 6 bs)
  if check && !e.isValid then none else if mont then some (e.toMont adx) else some e

/-- `fp::toBytesBE` (`src/fp.cpp:38-42`, `:50-54`); `mont` is `fm == from_mont::yes`. -/
def toBytesBE (adx mont : Bool) (x : Fp) : List UInt8 :=
  if mont then Scalar.toBytesBE (x.fromMont adx).words else Scalar.toBytesBE x.words

/-- `fp::toBytesLE` (`src/fp.cpp:44-48`, `:56-60`). -/
def toBytesLE (adx mont : Bool) (x : Fp) : List UInt8 :=
  if mont then Scalar.toBytesLE (x.fromMont adx).words else Scalar.toBytesLE x.words

end Fp

/-- `span<const uint8_t, n>(&in[i], n)` (`src/fp.cpp:470-471`, `:830`): the sub-span of length `n` at offset `i`. -/
def span (bs : List UInt8) (i n : Nat) : List UInt8 := (bs.drop i).take n

section Tower

variable {K : Type}

/-- `fp2::fromBytesBE` (`src/fp.cpp:468-474`): the coefficient of `u` comes first. -/
def Fp2.fromBytesBE (dec : List UInt8 → Option K) (bs : List UInt8) : Option (Fp2 K) :=
  match dec (span bs 0 48), dec (span bs 48 48) with
  | some c1, some c0 => some ⟨c0, c1⟩
  | _, _ => none

/-- `fp2::fromBytesLE` (`src/fp.cpp:476-482`). -/
def Fp2.fromBytesLE (dec : List UInt8 → Option K) (bs : List UInt8) : Option (Fp2 K) :=
  match dec (span bs 0 48), dec (span bs 48 48) with
  | some c0, some c1 => some ⟨c0, c1⟩
  | _, _ => none

/-- `fp2::toBytesBE` (`src/fp.cpp:484-488`, `:496-501`). -/
def Fp2.toBytesBE (enc : K → List UInt8) (x : Fp2 K) : List UInt8 := enc x.c1 ++ enc x.c0

/-- `fp2::toBytesLE` (`src/fp.cpp:490-494`, `:503-508`). -/
def Fp2.toBytesLE (enc : K → List UInt8) (x : Fp2 K) : List UInt8 := enc x.c0 ++ enc x.c1

/-- `fp6::fromBytesBE` (`src/fp.cpp:828-835`). -/
def Fp6.fromBytesBE (dec : List UInt8 → Option K) (bs : List UInt8) : Option (Fp6 K) :=
  match Fp2.fromBytesBE dec (span bs 0 96), Fp2.fromBytesBE dec (span bs 96 96), Fp2.fromBytesBE dec (span bs 192 96) with
  | some c2, some c1, some c0 => some ⟨c0, c1, c2⟩
  | _, _, _ => none

/-- `fp6::fromBytesLE` (`src/fp.cpp:837-844`). -/
def Fp6.fromBytesLE (dec : List UInt8 → Option K) (bs : List UInt8) : Option (Fp6 K) :=
  match Fp2.fromBytesLE dec (span bs 0 96), Fp2.fromBytesLE dec (span bs 96 96), Fp2.fromBytesLE dec (span bs 192 96) with
  | some c0, some c1, some c2 => some ⟨c0, c1, c2⟩
  | _, _, _ => none

/-- `fp6::toBytesBE` (`src/fp.cpp:846-851`, `:860-865`). -/
def Fp6.toBytesBE (enc : K → List UInt8) (x : Fp6 K) : List UInt8 :=
  x.c2.toBytesBE enc ++ (x.c1.toBytesBE enc ++ x.c0.toBytesBE enc)

/-- `fp6::toBytesLE` (`src/fp.cpp:853-858`, `:867-872`). -/
def Fp6.toBytesLE (enc : K → List UInt8) (x : Fp6 K) : List UInt8 :=
  x.c0.toBytesLE enc ++ (x.c1.toBytesLE enc ++ x.c2.toBytesLE enc)

/-- `fp12::fromBytesBE` (`src/fp.cpp:1241-1247`). -/
def Fp12.fromBytesBE (dec : List UInt8 → Option K) (bs : List UInt8) : Option (Fp12 K) :=
  match Fp6.fromBytesBE dec (span bs 0 288), Fp6.fromBytesBE dec (span bs 288 288) with
  | some c1, some c0 => some ⟨c0, c1⟩
  | _, _ => none

/-- `fp12::fromBytesLE` (`src/fp.cpp:1249-1255`). -/
def Fp12.fromBytesLE (dec : List UInt8 → Option K) (bs : List UInt8) : Option (Fp12 K) :=
  match Fp6.fromBytesLE dec (span bs 0 288), Fp6.fromBytesLE dec (span bs 288 288) with
  | some c0, some c1 => some ⟨c0, c1⟩
  | _, _ => none

/-- `fp12::toBytesBE` (`src/fp.cpp:1257-1261`, `:1269-1274`). -/
def Fp12.toBytesBE (enc : K → List UInt8) (x : Fp12 K) : List UInt8 := x.c1.toBytesBE enc ++ x.c0.toBytesBE enc

/-- `fp12::toBytesLE` (`src/fp.cpp:1263-1267`, `:1276-1281`). -/
def Fp12.toBytesLE (enc : K → List UInt8) (x : Fp12 K) : List UInt8 := x.c0.toBytesLE enc ++ x.c1.toBytesLE enc

end Tower

end Bls
