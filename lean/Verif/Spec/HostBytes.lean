import Verif.Spec.MapToCurve
import Verif.Spec.Bytes
import Verif.Spec.Pairing
import Verif.Spec.Subgroup
import Verif.Proof.Groups

/-!
# Functions on little-endian byte strings

What a virtual machine offers its programs when it makes the library available to them: functions from byte strings to byte
strings, as relations between input and output; an input that is related to no output is an error. Numbers are little-endian,
48 bytes for an element of the prime field. `mont` says how a number denotes an element: if it is `true`, the number is the
residue; if it is `false`, the number is the residue times `2^384`, so that a program may keep its values in the internal form.
-/

namespace Bls.Host

variable {K : Type} [Field K]

/-- The `n` bytes from byte `i` on. -/
def part (bs : List UInt8) (i n : ℕ) : List UInt8 := (bs.drop i).take n

/-- `bs` denotes the element `x` of the prime field. -/
def IsNum (mont : Bool) (bs : List UInt8) (x : K) : Prop :=
  bs.length = 48 ∧ leVal bs < p ∧ (leVal bs : K) = if mont then x else x * 2 ^ 384

/-- `bs` denotes the element `x` of the quadratic extension, the coefficient of `1` first. -/
def IsNum2 (mont : Bool) (bs : List UInt8) (x : Fp2 K) : Prop :=
  bs.length = 96 ∧ IsNum mont (part bs 0 48) x.c0 ∧ IsNum mont (part bs 48 48) x.c1

/-- `bs` denotes the element `x` of the extension of degree twelve: its twelve coefficients, lowest first. -/
def IsNum12 (mont : Bool) (bs : List UInt8) (x : Fp12 K) : Prop :=
  bs.length = 576 ∧ List.Forall₂ (fun i c => IsNum mont (part bs (48 * i) 48) c) (List.range 12)
    [x.c0.c0.c0, x.c0.c0.c1, x.c0.c1.c0, x.c0.c1.c1, x.c0.c2.c0, x.c0.c2.c1,
     x.c1.c0.c0, x.c1.c0.c1, x.c1.c1.c0, x.c1.c1.c1, x.c1.c2.c0, x.c1.c2.c1]

/-- `bs` denotes a point of the first curve: `x` and `y`, zeros for the point at infinity. -/
def IsPoint1 (mont : Bool) (bs : List UInt8) : E1 K → Prop
  | .zero => bs = List.replicate 96 0
  | .some x y _ => bs.length = 96 ∧ IsNum mont (part bs 0 48) x ∧ IsNum mont (part bs 48 48) y

/-- `bs` denotes a point of the second curve. -/
def IsPoint2 [IsFp K] (mont : Bool) (bs : List UInt8) : E2 K → Prop
  | .zero => bs = List.replicate 192 0
  | .some x y _ => bs.length = 192 ∧ IsNum2 mont (part bs 0 96) x ∧ IsNum2 mont (part bs 96 96) y

variable (K)

/-- The residue of a number of 64 bytes. -/
def IsFpMod (mont : Bool) (inp out : List UInt8) : Prop := inp.length = 64 ∧ IsNum mont out (leVal inp : K)

/-- The product of two elements. -/
def IsFpMul (mont : Bool) (a b out : List UInt8) : Prop :=
  ∃ x y : K, IsNum mont a x ∧ IsNum mont b y ∧ IsNum mont out (x * y)

/-- The power of an element whose exponent is a number of 64 bytes. -/
def IsFpExp (mont : Bool) (a e out : List UInt8) : Prop :=
  e.length = 64 ∧ ∃ x : K, IsNum mont a x ∧ IsNum mont out (x ^ leVal e)

variable [DecidableEq K]

/-- The sum of two points of the first curve. -/
def IsG1Add (mont : Bool) (a b out : List UInt8) : Prop :=
  ∃ P Q : E1 K, IsPoint1 mont a P ∧ IsPoint1 mont b Q ∧ IsPoint1 mont out (P + Q)

/-- The sum of two points of the second curve. -/
def IsG2Add [IsFp K] (mont : Bool) (a b out : List UInt8) : Prop :=
  ∃ P Q : E2 K, IsPoint2 mont a P ∧ IsPoint2 mont b Q ∧ IsPoint2 mont out (P + Q)

/-- The sum of multiples of `n` points of the first curve; the multipliers are numbers of 32 bytes. -/
def IsG1Sum (mont : Bool) (n : ℕ) (ps ss out : List UInt8) : Prop :=
  ps.length = 96 * n ∧ ss.length = 32 * n ∧ ∃ P : ℕ → E1 K, (∀ i < n, IsPoint1 mont (part ps (96 * i) 96) (P i)) ∧
    IsPoint1 mont out ((List.range n).map fun i => leVal (part ss (32 * i) 32) • P i).sum

/-- The sum of multiples of `n` points of the second curve. -/
def IsG2Sum [IsFp K] (mont : Bool) (n : ℕ) (ps ss out : List UInt8) : Prop :=
  ps.length = 192 * n ∧ ss.length = 32 * n ∧ ∃ P : ℕ → E2 K, (∀ i < n, IsPoint2 mont (part ps (192 * i) 192) (P i)) ∧
    IsPoint2 mont out ((List.range n).map fun i => leVal (part ss (32 * i) 32) • P i).sum

/-- The product of the pairings of `n` pairs of points of the two subgroups. The points are multiples of the generators, and the
product is the power of the pairing of the generators (the number `gtGen`) whose exponent is the sum of the products. -/
def IsPairing [IsFp K] (mont : Bool) (n : ℕ) (ps qs out : List UInt8) : Prop :=
  ps.length = 96 * n ∧ qs.length = 192 * n ∧ ∃ a b : ℕ → ℕ,
    (∀ i < n, IsPoint1 mont (part ps (96 * i) 96) (a i • gen1 K) ∧ IsPoint2 mont (part qs (192 * i) 192) (b i • gen2 K)) ∧
    IsNum12 mont out (gtGen (fun n => (n : K)) ^ ((List.range n).map fun i => a i * b i).sum)

/-- The map of RFC 9380 from the field to the first curve and into the subgroup. -/
def IsG1Map (mont : Bool) (inp out : List UInt8) : Prop :=
  ∃ (u : K) (P : E1 K), IsNum mont inp u ∧ Rfc.IsMap1 u P ∧ IsPoint1 mont out (hEff1 • P)

/-- The map of RFC 9380 from the quadratic extension to the second curve and into the subgroup. -/
def IsG2Map [IsFp K] (mont : Bool) (inp out : List UInt8) : Prop :=
  ∃ (u : Fp2 K) (P : E2 K), IsNum2 mont inp u ∧ Rfc.IsMap2 u P ∧ IsPoint2 mont out (hEff2 • P)

end Bls.Host
