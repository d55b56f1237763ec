import Verif.Proof.WeightedSum
import Verif.Props.Group

/-!
# C25: `weightedSum` with its callback
-/

namespace Bls.Props
open Bls Jac

variable {adx : Bool} {σ ε : Type}

/-- C25: the outcome of `g1::weightedSum` on fewer than `2^64` points. No vector is indexed outside its bounds; without a
callback the result is `Σ eᵢ Pᵢ`; with a callback the result is the same one, after exactly `sumCalls` calls, unless one of
these throws, and then the exception goes to the caller. -/
theorem C25_callback_g1 (scalars : List (List UInt64)) (hs : ∀ s ∈ scalars, s.length = 4) (points : List (G1 (FpV adx)))
    (Ps : List (E1 (FpV adx))) (h : List.Forall₂ Jac.Rep points Ps) (hn : min scalars.length points.length < 2 ^ 64) :
    ∃ r : G1 (FpV adx), r.Rep ((Ps.zip scalars).map fun e => wordsVal e.2 • e.1).sum ∧
      (∀ s : σ, weightedSumRun points scalars (none : Yield σ ε) s = .ok (r, s)) ∧
      ∀ (y : σ → Except ε σ) (s : σ), weightedSumRun points scalars (some y) s =
        match callTimes y (sumCalls (min scalars.length points.length)) s with
        | .ok t => .ok (r, t)
        | .error e => .error (.thrown e) :=
  ⟨_, weightedSum_rep (goodCurve1 _) h scalars hs, weightedSumRun_none points scalars,
    fun y s => weightedSumRun_some points scalars y s hn⟩

/-- C25: the same for `g2::weightedSum`. -/
theorem C25_callback_g2 (scalars : List (List UInt64)) (hs : ∀ s ∈ scalars, s.length = 4) (points : List (G2 (FpV adx)))
    (Ps : List (E2 (FpV adx))) (h : List.Forall₂ Jac.Rep points Ps) (hn : min scalars.length points.length < 2 ^ 64) :
    ∃ r : G2 (FpV adx), r.Rep ((Ps.zip scalars).map fun e => wordsVal e.2 • e.1).sum ∧
      (∀ s : σ, weightedSumRun points scalars (none : Yield σ ε) s = .ok (r, s)) ∧
      ∀ (y : σ → Except ε σ) (s : σ), weightedSumRun points scalars (some y) s =
        match callTimes y (sumCalls (min scalars.length points.length)) s with
        | .ok t => .ok (r, t)
        | .error e => .error (.thrown e) :=
  ⟨_, weightedSum_rep (goodCurve2 _) h scalars hs, weightedSumRun_none points scalars,
    fun y s => weightedSumRun_some points scalars y s hn⟩

/-- A callback that counts and throws at the 300th call: for two points there are 258 calls and it does not throw; for 1000
points there are 312. -/
example : sumCalls 2 = 258 ∧ sumCalls 1000 = 312 ∧
    callTimes (fun n : ℕ => if n < 300 then .ok (n + 1) else .error ()) (sumCalls 2) 0 = .ok 258 ∧
    callTimes (fun n : ℕ => if n < 300 then .ok (n + 1) else .error ()) (sumCalls 1000) 0 = .error () := by
  decide +kernel
example : ∃ r : G1 (FpV adx), weightedSumRun [(G1.one : G1 (FpV adx)), G1.one] [[1, 2, 3, 4], [5, 6, 7, 8]]
    (some fun n : ℕ => if n < 300 then Except.ok (n + 1) else Except.error ()) 0 = .ok (r, 258) := by
  obtain ⟨r, -, -, h⟩ := C25_callback_g1 (σ := ℕ) (ε := Unit) [[1, 2, 3, 4], [5, 6, 7, 8]] (by simp)
    [(G1.one : G1 (FpV adx)), G1.one] _ (.cons G1.one_rep (.cons G1.one_rep .nil)) (show 2 < 2 ^ 64 by norm_num)
  refine ⟨r, ?_⟩
  rw [h, show callTimes (fun n : ℕ => if n < 300 then .ok (n + 1) else .error ())
    (sumCalls (min [[1, 2, 3, 4], [5, 6, 7, (8 : UInt64)]].length [(G1.one : G1 (FpV adx)), G1.one].length)) 0 =
    (.ok 258 : Except Unit ℕ) by show callTimes _ (sumCalls 2) 0 = _; decide +kernel]

end Bls.Props
