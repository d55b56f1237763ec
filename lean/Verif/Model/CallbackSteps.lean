import Verif.Model.WeightedSum
import Verif.Model.Pairing

/-!
# The work done between calls of the callback

`weightedSum` (`src/g.cpp:472-531`, `src/g.cpp:1236-1295`) and `calculate` (`src/pairing.cpp:96-190`) with a callback that
returns, written again with a list of the steps in the order in which they are taken: calls of the callback and the
operations that cost time. `none` is undefined behaviour as in `Model/WeightedSum.lean` and `Model/Pairing.lean`.
-/

namespace Bls

/-- A step: a call of the callback, `addAssign` and `doubleAssign` on points (`src/g.cpp:505`, `:515-516`, `:526`, `:528`), the
computation of a line (`src/pairing.cpp:86`, `:90`), a line multiplied to the result (`src/pairing.cpp:119-121`, `:128-130`),
`square` (`src/pairing.cpp:115`). -/
inductive Step
  | call
  | add
  | dbl
  | line
  | ell
  | sqr
deriving DecidableEq

namespace Jac

variable {F : Type} [Ops F]

/-- `if (yield && ((i & 255) == 0)) yield();` (`src/g.cpp:490-492`, `:497-499`, `:512-514`, `:1254-1256`, `:1261-1263`,
`:1276-1278`). -/
def pollSteps (i : Nat) (l : List Step) : List Step := if i &&& 255 = 0 then l ++ [.call] else l

/-- `resetLoop` (`src/g.cpp:488-494`, `src/g.cpp:1252-1258`). -/
def resetSteps : Nat → Nat → List (Jac F) → List Step → Option (List (Jac F) × List Step)
  | 0, _, bucket, l => some (bucket, l)
  | r + 1, i, bucket, l =>
    let l := pollSteps i l
    if i < bucket.length then resetSteps r (i + 1) (bucket.set i zero) l else none

/-- `fillLoop` (`src/g.cpp:495-507`, `src/g.cpp:1259-1271`). -/
def fillSteps (points : List (Jac F)) (scalars : List (List UInt64)) (c j : Nat) :
    Nat → Nat → List (Jac F) → List Step → Option (List (Jac F) × List Step)
  | 0, _, bucket, l => some (bucket, l)
  | r + 1, i, bucket, l =>
    let l := pollSteps i l
    match scalars[i]?, points[i]? with
    | some sc, some pt =>
      let index := windowIndex c j sc
      if index ≠ 0 then
        match bucket[index - 1]? with
        | some b => fillSteps points scalars c j r (i + 1) (bucket.set (index - 1) (b.add pt)) (l ++ [.add])
        | none => none
      else fillSteps points scalars c j r (i + 1) bucket l
    | _, _ => none

/-- `sumLoop` (`src/g.cpp:508-518`, `src/g.cpp:1272-1282`). -/
def sumSteps (bucket : List (Jac F)) : Nat → Jac F → Jac F → List Step → Option (Jac F × List Step)
  | 0, acc, _, l => some (acc, l)
  | i + 1, acc, sum, l =>
    let l := pollSteps i l
    match bucket[i]? with
    | some b =>
      let sum := sum.add b
      sumSteps bucket i (acc.add sum) sum (l ++ [.add, .add])
    | none => none

/-- `windowLoop` (`src/g.cpp:486-519`, `src/g.cpp:1250-1283`). -/
def windowSteps (points : List (Jac F)) (scalars : List (List UInt64)) (size c : Nat) :
    Nat → Nat → List (Jac F) → List (Jac F) → List Step → Option (List (Jac F) × List Step)
  | 0, _, _, windows, l => some (windows, l)
  | r + 1, j, bucket, windows, l => do
    let (bucket, l) ← resetSteps (2 ^ c - 1) 0 bucket l
    let (bucket, l) ← fillSteps points scalars c j size 0 bucket l
    let (acc, l) ← sumSteps bucket (2 ^ c - 1) zero zero l
    windowSteps points scalars size c r (j + 1) bucket (windows ++ [acc]) l

/-- `combineLoop` (`src/g.cpp:522-530`, `src/g.cpp:1286-1294`). -/
def combineSteps (c : Nat) (windows : List (Jac F)) : Nat → Jac F → List Step → Option (Jac F × List Step)
  | 0, acc, l => some (acc, l)
  | i + 1, acc, l =>
    match windows[i]? with
    | some w => combineSteps c windows i ((dblN c acc).add w) (l ++ List.replicate c .dbl ++ [.add])
    | none => none

/-- `weightedSumRun` (`src/g.cpp:472-531`, `src/g.cpp:1236-1295`). -/
def weightedSumSteps (points : List (Jac F)) (scalars : List (List UInt64)) : Option (Jac F × List Step) := do
  let size := min scalars.length points.length
  let c := windowBits size
  let bucket := List.replicate (2 ^ c - 1) ⟨Ops.zero, Ops.zero, Ops.zero⟩
  let (windows, l) ← windowSteps points scalars size c (255 / c + 1) 0 bucket [] []
  combineSteps c windows windows.length zero l

end Jac

namespace Pairing

variable {K : Type} [FpOps K]

/-- `preComputeLoop` (`src/pairing.cpp:84-93`). -/
def preComputeSteps (tp : G2 K) : Nat → G2 K → List Step → List (Coeff K) × List Step
  | 0, _, l => ([], l)
  | i + 1, r, l =>
    let d := doublingStep r
    if loopBit i then
      let a := additionStep d.2 tp
      let t := preComputeSteps tp i a.2 (l ++ [.line, .line])
      (d.1 :: a.1 :: t.1, t.2)
    else
      let t := preComputeSteps tp i d.2 (l ++ [.line])
      (d.1 :: t.1, t.2)

/-- The loop that calls `pre_compute` for all pairs (`src/pairing.cpp:100-103`, `:75-94`). -/
def allCoeffSteps : List (G1 K × G2 K) → List Step → List (G1 K × List (Coeff K)) × List Step
  | [], l => ([], l)
  | pq :: pqs, l =>
    let t := if pq.2.isZero then (List.replicate 68 ⟨Fp2.zero, Fp2.zero, Fp2.zero⟩, l) else preComputeSteps pq.2 63 pq.2 l
    let ts := allCoeffSteps pqs t.2
    ((pq.1, t.1) :: ts.1, ts.2)

/-- `ellAll` (`src/pairing.cpp:117-122`, `:126-131`). -/
def ellAllSteps (k : Nat) : List (G1 K × List (Coeff K)) → Fp12 K → List Step → Option (Fp12 K × List Step)
  | [], f, l => some (f, l)
  | pc :: pcs, f, l => (ell k f pc).bind fun f => ellAllSteps k pcs f (l ++ [.ell])

/-- `millerLoopFrom` (`src/pairing.cpp:111-134`). -/
def millerLoopFromSteps (pcs : List (G1 K × List (Coeff K))) : Nat → Nat → Fp12 K → List Step → Option (Fp12 K × List Step)
  | 0, _, f, l => some (f, l)
  | i + 1, k, f, l =>
    let (f, l) := if i ≠ 62 then (f.sqr, l ++ [.sqr]) else (f, l)
    (ellAllSteps k pcs f l).bind fun (f, l) =>
      if loopBit i then (ellAllSteps (k + 1) pcs f l).bind fun (f, l) => millerLoopFromSteps pcs i (k + 2) f l
      else millerLoopFromSteps pcs i (k + 1) f l

/-- `miller_loop` (`src/pairing.cpp:96-137`) with its steps. -/
def millerLoopSteps (pairs : List (G1 K × G2 K)) : Option (Fp12 K × List Step) :=
  let pcs := allCoeffSteps pairs []
  let l := if 20 ≤ pairs.length then pcs.2 ++ [.call] else pcs.2
  if pairs.isEmpty then none
  else (millerLoopFromSteps pcs.1 63 0 Fp12.one l).map fun r => (r.1.conjugate, r.2)

/-- `miller_loop` (`src/pairing.cpp:96-137`) with a callback that may throw. -/
def millerLoopRun {σ ε : Type} (pairs : List (G1 K × G2 K)) (yield : Jac.Yield σ ε) (s : σ) :
    Except (Jac.Stop ε) (Fp12 K × σ) := do
  let pcs := pairs.map fun pq => (pq.1, preCompute pq.2)
  let s ← if 20 ≤ pairs.length then (match yield with | some y => (y s).mapError .thrown | none => .ok s) else .ok s
  if pairs.isEmpty then .error .undefined
  else
    match millerLoopFrom pcs 63 0 Fp12.one with
    | some f => .ok (f.conjugate, s)
    | none => .error .undefined

/-- `calculate` (`src/pairing.cpp:180-190`) with a callback that may throw. -/
def calculateRun {σ ε : Type} (pairs : List (G1 K × G2 K)) (yield : Jac.Yield σ ε) (s : σ) :
    Except (Jac.Stop ε) (Fp12 K × σ) :=
  if pairs.isEmpty then .ok (Fp12.one, s)
  else do
    let (f, s) ← millerLoopRun pairs yield s
    match finalExponentiation f with
    | some f => .ok (f, s)
    | none => .error .undefined

end Pairing

end Bls
