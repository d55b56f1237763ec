import Verif.Model.Group

/-!
# The elements of vectors that `weightedSum` accesses

`weightedSum` as in `Model/Group.lean`, with the accesses it makes to the elements of `scalars`, `points`, `bucket` and
`windows`, in order. The callback is left out (`Model/WeightedSum.lean`); it has no access to them.
-/

namespace Bls

/-- The statements of `weightedSum` that access an element: `bucket[k] = zero()` (`src/g.cpp:493`, `:1257`), `scalars[i]`
(`src/g.cpp:501`, `:1265`), `bucket[k].addAssign(points[i])` (`src/g.cpp:505`, `:1269`), `sum.addAssign(bucket[k])`
(`src/g.cpp:515`, `:1279`), `acc.addAssign(windows[k])` (`src/g.cpp:528`, `:1292`). -/
inductive ElementAccess
  | reset (k : Nat)
  | scalar (i : Nat)
  | put (k i : Nat)
  | sum (k : Nat)
  | window (k : Nat)
deriving DecidableEq

namespace Jac

variable {F : Type} [Ops F]

/-- The distribution loop of window `j`, from point `i` on (`src/g.cpp:495-507`, `src/g.cpp:1259-1271`). -/
def fillAccesses (c j : Nat) : List (Jac F × List UInt64) → Nat → List (Jac F) → List (Jac F) × List ElementAccess
  | [], _, bucket => (bucket, [])
  | ps :: rest, i, bucket =>
    let index := windowIndex c j ps.2
    if index ≠ 0 then
      let r := fillAccesses c j rest (i + 1) (bucket.modify (index - 1) (fun b => b.add ps.1))
      (r.1, .scalar i :: .put (index - 1) i :: r.2)
    else
      let r := fillAccesses c j rest (i + 1) bucket
      (r.1, .scalar i :: r.2)

/-- One window (`src/g.cpp:486-519`, `src/g.cpp:1250-1283`). -/
def windowAccesses (c : Nat) (pairs : List (Jac F × List UInt64)) (j : Nat) : Jac F × List ElementAccess :=
  let r := fillAccesses c j pairs 0 (List.replicate (2 ^ c - 1) zero)
  (sumBuckets r.1, (List.range (2 ^ c - 1)).map .reset ++ r.2 ++ (List.range (2 ^ c - 1)).reverse.map .sum)

/-- `g1::weightedSum` (`src/g.cpp:472-531`), `g2::weightedSum` (`src/g.cpp:1236-1295`) with its accesses. -/
def weightedSumAccesses (points : List (Jac F)) (scalars : List (List UInt64)) : Jac F × List ElementAccess :=
  let pairs := points.zip scalars
  let c := windowBits pairs.length
  let runs := (List.range (255 / c + 1)).map (windowAccesses c pairs)
  ((runs.map Prod.fst).foldr (fun w acc => (dblN c acc).add w) zero,
    (runs.map Prod.snd).flatten ++ (List.range runs.length).reverse.map .window)

end Jac
end Bls
