import Verif.Model.Group

/-!
# `weightedSum` with its buckets and its callback (`src/g.cpp:472-531`, `src/g.cpp:1236-1295`)

`Jac.weightedSum` gives the value. Here the same text is followed statement by statement: the vector `bucket` is one object
that all windows use, every index is checked, and the callback `yield` acts on the state `σ` of the caller or throws.
-/

namespace Bls.Jac

/-- How a run can stop before `return`: an index outside a vector, or an exception of type `ε` thrown by `yield`
(`src/g.cpp:472`, `src/g.cpp:1236`). -/
inductive Stop (ε : Type)
  | undefined
  | thrown (e : ε)

variable {F : Type} [Ops F] {σ ε : Type}

/-- The callback: absent, or a function that changes the state or throws (`src/g.cpp:472`, `src/g.cpp:1236`). -/
abbrev Yield (σ ε : Type) := Option (σ → Except ε σ)

/-- `if (yield && ((i & 255) == 0)) yield();` (`src/g.cpp:490-492`, `:497-499`, `:512-514`, `:1254-1256`, `:1261-1263`,
`:1276-1278`). -/
def poll (yield : Yield σ ε) (i : Nat) (s : σ) : Except (Stop ε) σ :=
  match yield with
  | none => .ok s
  | some y => if i &&& 255 = 0 then (y s).mapError .thrown else .ok s

/-- `bucket[i] = zero()` for `r` indices from `i` on (`src/g.cpp:488-494`, `src/g.cpp:1252-1258`). -/
def resetLoop (yield : Yield σ ε) : Nat → Nat → List (Jac F) → σ → Except (Stop ε) (List (Jac F) × σ)
  | 0, _, bucket, s => .ok (bucket, s)
  | r + 1, i, bucket, s => do
    let s ← poll yield i s
    if i < bucket.length then resetLoop yield r (i + 1) (bucket.set i zero) s else .error .undefined

/-- The distribution of `r` points from index `i` on (`src/g.cpp:495-507`, `src/g.cpp:1259-1271`). -/
def fillLoop (yield : Yield σ ε) (points : List (Jac F)) (scalars : List (List UInt64)) (c j : Nat) :
    Nat → Nat → List (Jac F) → σ → Except (Stop ε) (List (Jac F) × σ)
  | 0, _, bucket, s => .ok (bucket, s)
  | r + 1, i, bucket, s => do
    let s ← poll yield i s
    match scalars[i]?, points[i]? with
    | some sc, some pt =>
      let index := windowIndex c j sc
      if index ≠ 0 then
        match bucket[index - 1]? with
        | some b => fillLoop yield points scalars c j r (i + 1) (bucket.set (index - 1) (b.add pt)) s
        | none => .error .undefined
      else fillLoop yield points scalars c j r (i + 1) bucket s
    | _, _ => .error .undefined

/-- The running sums (`src/g.cpp:508-518`, `src/g.cpp:1272-1282`), `i` counting down. -/
def sumLoop (yield : Yield σ ε) (bucket : List (Jac F)) : Nat → Jac F → Jac F → σ → Except (Stop ε) (Jac F × σ)
  | 0, acc, _, s => .ok (acc, s)
  | i + 1, acc, sum, s => do
    let s ← poll yield i s
    match bucket[i]? with
    | some b =>
      let sum := sum.add b
      sumLoop yield bucket i (acc.add sum) sum s
    | none => .error .undefined

/-- The loop over `r` windows from `j` on (`src/g.cpp:486-519`, `src/g.cpp:1250-1283`). -/
def windowLoop (yield : Yield σ ε) (points : List (Jac F)) (scalars : List (List UInt64)) (size c : Nat) :
    Nat → Nat → List (Jac F) → List (Jac F) → σ → Except (Stop ε) (List (Jac F) × σ)
  | 0, _, _, windows, s => .ok (windows, s)
  | r + 1, j, bucket, windows, s => do
    let (bucket, s) ← resetLoop yield (2 ^ c - 1) 0 bucket s
    let (bucket, s) ← fillLoop yield points scalars c j size 0 bucket s
    let (acc, s) ← sumLoop yield bucket (2 ^ c - 1) zero zero s
    windowLoop yield points scalars size c r (j + 1) bucket (windows ++ [acc]) s

/-- The last loop (`src/g.cpp:522-530`, `src/g.cpp:1286-1294`), `i` counting down. -/
def combineLoop (c : Nat) (windows : List (Jac F)) : Nat → Jac F → Except (Stop ε) (Jac F)
  | 0, acc => .ok acc
  | i + 1, acc =>
    match windows[i]? with
    | some w => combineLoop c windows i ((dblN c acc).add w)
    | none => .error .undefined

/-- `g1::weightedSum` (`src/g.cpp:472-531`), `g2::weightedSum` (`src/g.cpp:1236-1295`). `resize` makes default points, whose
coordinates are zero. -/
def weightedSumRun (points : List (Jac F)) (scalars : List (List UInt64)) (yield : Yield σ ε) (s : σ) :
    Except (Stop ε) (Jac F × σ) := do
  let size := min scalars.length points.length
  let c := windowBits size
  let bucket := List.replicate (2 ^ c - 1) ⟨Ops.zero, Ops.zero, Ops.zero⟩
  let (windows, s) ← windowLoop yield points scalars size c (255 / c + 1) 0 bucket [] s
  let acc ← combineLoop c windows windows.length zero
  .ok (acc, s)

end Bls.Jac
