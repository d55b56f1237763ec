import Verif.Spec.Hash
import Mathlib.Data.Nat.Notation

/-!
# HKDF-Expand when calls of HMAC fail

Independent of the model: the blocks that an expansion produces if the `i`-th call of HMAC computes its value only for
`good i` and leaves the variable `T` as it was otherwise. Before the first call `T` is `t0`.
-/

namespace Bls.Rfc

/-- `T(n)`, or what stands in its place. -/
def faultyT (H : List UInt8 → List UInt8) (good : ℕ → Bool) (t0 prk info : List UInt8) : ℕ → List UInt8
  | 0 => t0
  | n + 1 => if good (n + 1) then
      hmac H prk ((if n = 0 then [] else faultyT H good t0 prk info n) ++ info ++ [UInt8.ofNat (n + 1)])
    else faultyT H good t0 prk info n

/-- The first `L` bytes of these blocks. -/
def faultyExpand (H : List UInt8 → List UInt8) (good : ℕ → Bool) (t0 prk info : List UInt8) (L : ℕ) : List UInt8 :=
  (((List.range ((L + 31) / 32)).map fun i => faultyT H good t0 prk info (i + 1)).flatten).take L

end Bls.Rfc
