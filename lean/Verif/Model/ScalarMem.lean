import Verif.Model.Alias
import Verif.Model.Division

/-!
# `scalar::rsh` and `bn_divn_safe` on memory

`Model/Scalar.lean` and `Model/Division.lean` take the operands as values. Here the arrays lie in one memory of words, in which the
destinations may overlap the operands.
-/

namespace Bls.ScalarMem

/-- `scalar::rsh<N>(out, in, bits)` (`include/bls12-381/scalar.hpp:196-214`). -/
def rsh (N out inp bits : Nat) (m : Heap Nat UInt64) : Heap Nat UInt64 :=
  (List.range N).foldl (fun m i =>
    let numBytes := bits / 64
    let numBits := bits % 64
    let vFrom := if i + numBytes ≥ N then 0 else m (inp + (i + numBytes))
    let vFromP1 := if i + numBytes + 1 ≥ N then 0 else m (inp + (i + numBytes + 1))
    m.put (out + i)
      (if numBits ≠ 0 then vFrom >>> UInt64.ofNat numBits ||| vFromP1 <<< UInt64.ofNat (64 - numBits) else vFrom)) m

/-- `memcpy` of `n` words to a local array (`include/bls12-381/scalar.hpp:228-229`). -/
def copyIn (m : Heap Nat UInt64) (a n : Nat) : List UInt64 := (List.range n).map fun i => m (a + i)

/-- `memcpy` from a local array (`include/bls12-381/scalar.hpp:237-238`). -/
def copyOut (m : Heap Nat UInt64) (c : Nat) (ws : List UInt64) : Heap Nat UInt64 := fun k =>
  if c ≤ k ∧ k < c + ws.length then ws.getD (k - c) 0 else m k

/-- `bn_divn_safe<N, M>(c, d, a, b)` (`include/bls12-381/scalar.hpp:220-239`): the operands are copied, the division works on local
arrays, then the quotient and after it the remainder are copied to the destinations. -/
def divide (N M c d a b : Nat) (m : Heap Nat UInt64) : Option (Heap Nat UInt64) :=
  (Division.divnSafe (copyIn m a N) (copyIn m b M)).map fun r => copyOut (copyOut m c r.1) d r.2

end Bls.ScalarMem
