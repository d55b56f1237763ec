import Verif.Model.ScaleRun
import Mathlib.Data.Nat.Bits

/-!
# Double-and-add from the least significant digit
-/

namespace Bls

/-- One addition and one doubling for each binary digit 1 of `n` and one doubling for each digit 0, from the least
significant digit up to the leading one. -/
def callsOf (n : ℕ) : List PointCall := n.bits.flatMap fun b => if b then [.add, .dbl] else [.dbl]

end Bls
