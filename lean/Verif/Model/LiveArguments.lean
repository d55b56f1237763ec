import Verif.Model.CallbackSteps

/-!
# A callback that changes the arguments

`weightedSum` and `calculate` take spans, that is addresses and sizes, and read the elements while they run. Here the elements belong
to the state `σ` of the caller, on which the callback acts, and every read of an element takes the state at that moment.

Simplification: the callback leaves the elements where they are (it may overwrite them, but not free them).
-/

namespace Bls.Jac

variable {F : Type} [Ops F] {σ ε : Type}

/-- The distribution of `r` points from index `i` on (`src/g.cpp:495-507`, `src/g.cpp:1259-1271`). -/
def fillLive (yield : Yield σ ε) (points : σ → Nat → Jac F) (scalars : σ → Nat → List UInt64) (c j : Nat) :
    Nat → Nat → List (Jac F) → σ → Except (Stop ε) (List (Jac F) × σ)
  | 0, _, bucket, s => .ok (bucket, s)
  | r + 1, i, bucket, s => do
    let s ← poll yield i s
    let index := windowIndex c j (scalars s i)
    if index ≠ 0 then
      match bucket[index - 1]? with
      | some b => fillLive yield points scalars c j r (i + 1) (bucket.set (index - 1) (b.add (points s i))) s
      | none => .error .undefined
    else fillLive yield points scalars c j r (i + 1) bucket s

/-- The loop over `r` windows from `j` on (`src/g.cpp:486-519`, `src/g.cpp:1250-1283`). -/
def windowLive (yield : Yield σ ε) (points : σ → Nat → Jac F) (scalars : σ → Nat → List UInt64) (size c : Nat) :
    Nat → Nat → List (Jac F) → List (Jac F) → σ → Except (Stop ε) (List (Jac F) × σ)
  | 0, _, _, windows, s => .ok (windows, s)
  | r + 1, j, bucket, windows, s => do
    let (bucket, s) ← resetLoop yield (2 ^ c - 1) 0 bucket s
    let (bucket, s) ← fillLive yield points scalars c j size 0 bucket s
    let (acc, s) ← sumLoop yield bucket (2 ^ c - 1) zero zero s
    windowLive yield points scalars size c r (j + 1) bucket (windows ++ [acc]) s

/-- `g1::weightedSum` (`src/g.cpp:472-531`), `g2::weightedSum` (`src/g.cpp:1236-1295`) for spans of `np` points and `ns` scalars. -/
def weightedSumLive (np ns : Nat) (points : σ → Nat → Jac F) (scalars : σ → Nat → List UInt64) (yield : Yield σ ε) (s : σ) :
    Except (Stop ε) (Jac F × σ) := do
  let size := min ns np
  let c := windowBits size
  let bucket := List.replicate (2 ^ c - 1) ⟨Ops.zero, Ops.zero, Ops.zero⟩
  let (windows, s) ← windowLive yield points scalars size c (255 / c + 1) 0 bucket [] s
  let acc ← combineLoop c windows windows.length zero
  .ok (acc, s)

end Bls.Jac

namespace Bls.Pairing

variable {K : Type} [FpOps K] {σ ε : Type}

/-- `miller_loop` (`src/pairing.cpp:96-137`) for a span of `n` pairs: `pre_compute` reads the second points before the call
(`:100-103`), the loop reads the first points after it (`:119-120`, `:128-129`). -/
def millerLoopLive (n : Nat) (pairs : σ → Nat → G1 K × G2 K) (yield : Jac.Yield σ ε) (s : σ) : Except (Jac.Stop ε) (Fp12 K × σ) := do
  let ellCoeffs := (List.range n).map fun i => preCompute (pairs s i).2
  let s ← if 20 ≤ n then (match yield with | some y => (y s).mapError .thrown | none => .ok s) else .ok s
  if n = 0 then .error .undefined
  else
    match millerLoopFrom (((List.range n).map fun j => (pairs s j).1).zip ellCoeffs) 63 0 Fp12.one with
    | some f => .ok (f.conjugate, s)
    | none => .error .undefined

/-- `calculate` (`src/pairing.cpp:180-190`) for a span of `n` pairs. -/
def calculateLive (n : Nat) (pairs : σ → Nat → G1 K × G2 K) (yield : Jac.Yield σ ε) (s : σ) : Except (Jac.Stop ε) (Fp12 K × σ) :=
  if n = 0 then .ok (Fp12.one, s)
  else do
    let (f, s) ← millerLoopLive n pairs yield s
    match finalExponentiation f with
    | some f => .ok (f, s)
    | none => .error .undefined

end Bls.Pairing
