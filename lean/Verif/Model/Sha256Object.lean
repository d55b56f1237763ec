import Verif.Model.Sha256
import Verif.Spec.Sha256Object

/-!
# A `sha256` object over its whole life (`src/sha256.cpp:9-58`)

`Sha256.digest` is only the value returned. Here `digest` also leaves the object behind: `pad` has changed the buffer, the
state and the bit count, and nothing resets them.
-/

namespace Bls.Sha256
open Fips (Call)

/-- `digest` (`src/sha256.cpp:42-58`): the value and the object afterwards. -/
def digestObj (x : Sha256) : List UInt8 × Sha256 :=
  let x := x.pad
  (revert x.state, x)

/-- A sequence of calls on one object: the values of the calls of `digest`, in order (`src/sha256.cpp:21-58`). -/
def calls : Sha256 → List Call → List (List UInt8)
  | _, [] => []
  | x, .update bs :: cs => calls (x.update bs) cs
  | x, .digest :: cs => (digestObj x).1 :: calls (digestObj x).2 cs

/-- The object after a sequence of calls (`src/sha256.cpp:21-58`). -/
def after : Sha256 → List Call → Sha256
  | x, [] => x
  | x, .update bs :: cs => after (x.update bs) cs
  | x, .digest :: cs => after (digestObj x).2 cs

end Bls.Sha256
