import Verif.Proof.CallbackSharp
import Verif.Proof.FpV

/-!
# C85: how long the callback has to wait

`weightedSumSteps`, `millerLoopSteps`: the functions with the list of the steps they take, calls of the callback among
them. `WaitsAtMost n l`: nowhere in `l` are there more than `n` steps in a row without a call.
-/

namespace Bls.Props
open Bls Jac Pairing

attribute [local irreducible] pairVal

variable {adx : Bool} {σ ε : Type}

/-- C85: in `g1::weightedSum` at most 764 operations on points lie between two calls of the callback, before the first one and
after the last one, for any number of points. The steps are those of the function: the same result and the same calls, one addition for every digit
that is not zero, two for every bucket, one and a doubling for every bit for every window. -/
theorem C85_sum_g1 (points : List (G1 (FpV adx))) (scalars : List (List UInt64))
    (hn : min scalars.length points.length < 2 ^ 64) :
    ∃ steps, weightedSumSteps points scalars = some (weightedSum points scalars, steps) ∧ WaitsAtMost 764 steps ∧
      steps.count .add = sumAdditions (min scalars.length points.length) scalars ∧
      steps.count .dbl = sumWindows (min scalars.length points.length) * sumWidth (min scalars.length points.length) ∧
      weightedSumRun points scalars record [] = .ok (weightedSum points scalars, steps.filter (· = .call)) :=
  weightedSumSteps_some points scalars hn

/-- C85: the same for `g2::weightedSum`. -/
theorem C85_sum_g2 (points : List (G2 (FpV adx))) (scalars : List (List UInt64))
    (hn : min scalars.length points.length < 2 ^ 64) :
    ∃ steps, weightedSumSteps points scalars = some (weightedSum points scalars, steps) ∧ WaitsAtMost 764 steps ∧
      steps.count .add = sumAdditions (min scalars.length points.length) scalars ∧
      steps.count .dbl = sumWindows (min scalars.length points.length) * sumWidth (min scalars.length points.length) ∧
      weightedSumRun points scalars record [] = .ok (weightedSum points scalars, steps.filter (· = .call)) :=
  weightedSumSteps_some points scalars hn

/-- Three points: 258 calls. -/
example : ∃ steps, weightedSumSteps (List.replicate 3 (G1.one : G1 (FpV adx))) (List.replicate 3 [1, 2, 3, 4]) =
      some (weightedSum (List.replicate 3 G1.one) (List.replicate 3 [1, 2, 3, 4]), steps) ∧
    WaitsAtMost 764 steps ∧ steps.filter (· = .call) = List.replicate 258 .call := by
  have hn : min (List.replicate 3 [1, 2, 3, (4 : UInt64)]).length (List.replicate 3 (G1.one : G1 (FpV adx))).length < 2 ^ 64 := by
    norm_num
  obtain ⟨steps, h1, h2, -, -, h3⟩ := C85_sum_g1 _ _ hn
  refine ⟨steps, h1, h2, ?_⟩
  unfold record at h3
  rw [weightedSumRun_some _ _ _ _ hn] at h3
  have e : callTimes (fun l => .ok (l ++ [Step.call])) (sumCalls (min (List.replicate 3 [1, 2, 3, (4 : UInt64)]).length
      (List.replicate 3 (G1.one : G1 (FpV adx))).length)) [] = (.ok (List.replicate 258 .call) : Except Empty (List Step)) := by
    show callTimes _ (sumCalls 3) [] = _
    decide +kernel
  rw [e] at h3
  exact (Prod.mk.inj (Except.ok.inj h3)).2.symm

/-- C85: the bound is reached: for a multiple of 256 of at least `2^17` points with odd scalars there are 764 operations in a row,
256 while the points are distributed and then two for each of 254 buckets. -/
theorem C85_sharp {n : ℕ} (hn : 2 ^ 17 ≤ n) (hn' : n < 2 ^ 64) (hm : n % 256 = 0) (scalars : List (List UInt64))
    (hs : scalars.length = n) (ho : ∀ sc ∈ scalars, wordsVal sc % 2 = 1) :
    (∀ points : List (G1 (FpV adx)), points.length = n → ∃ steps, weightedSumSteps points scalars =
      some (weightedSum points scalars, steps) ∧ ¬ WaitsAtMost 763 steps) ∧
    ∀ points : List (G2 (FpV adx)), points.length = n → ∃ steps, weightedSumSteps points scalars =
      some (weightedSum points scalars, steps) ∧ ¬ WaitsAtMost 763 steps := by
  constructor
  · intro points hp
    obtain ⟨l, h, -⟩ := weightedSumSteps_some points scalars (by rw [hs, hp, Nat.min_self]; exact hn')
    exact ⟨l, h, weightedSumSteps_sharp points scalars hp hs hn hn' hm ho h⟩
  · intro points hp
    obtain ⟨l, h, -⟩ := weightedSumSteps_some points scalars (by rw [hs, hp, Nat.min_self]; exact hn')
    exact ⟨l, h, weightedSumSteps_sharp points scalars hp hs hn hn' hm ho h⟩

/-- The generator `2^17` times with the scalar 1. -/
example : ∃ steps, weightedSumSteps (List.replicate (2 ^ 17) (G1.one : G1 (FpV adx))) (List.replicate (2 ^ 17) [1, 0, 0, 0]) =
    some (weightedSum (List.replicate (2 ^ 17) G1.one) (List.replicate (2 ^ 17) [1, 0, 0, 0]), steps) ∧ ¬ WaitsAtMost 763 steps :=
  (C85_sharp le_rfl (by norm_num) (by norm_num) (List.replicate (2 ^ 17) [1, 0, 0, 0]) (List.length_replicate ..) fun sc h => by
    rw [List.eq_of_mem_replicate h]; rfl).1 _ (List.length_replicate ..)

/-- C85: the steps of `miller_loop`: 68 lines for every second point that is not zero, then one call when there are at least 20
pairs, then a loop that multiplies 68 lines for every pair and makes no call. -/
theorem C85_pairing (pairs : List (G1 (FpV adx) × G2 (FpV adx))) (hne : pairs ≠ []) :
    ∃ f lines loop, millerLoopSteps pairs = some (f, lines ++ (if 20 ≤ pairs.length then [.call] else []) ++ loop) ∧
      millerLoop pairs none () = some (f, ()) ∧ lines = List.replicate (68 * pairs.countP fun pq => !pq.2.isZero) .line ∧
      Step.call ∉ loop ∧ loop.count .ell = 68 * pairs.length ∧ loop.count .sqr = 62 := by
  have h := millerLoop_eq pairs hne (none : Option (Unit → Unit)) ()
  refine ⟨_, _, _, by rw [millerLoopSteps_eq, h]; rfl, h, ?_, loopSteps_call _ _, ?_, ?_⟩
  · rw [lineSteps, List.countP_eq_length_filter]
  · rw [loopSteps_ell, entries_63]
  · exact loopSteps_sqr pairs.length

/-- C85: hence there is no bound for the pairing: a list of more than `n / 68` pairs has more than `n` steps in a row without a
call. -/
theorem C85_pairing_unbounded (n : ℕ) (pairs : List (G1 (FpV adx) × G2 (FpV adx))) (hn : n < 68 * pairs.length) :
    ∃ f steps, millerLoopSteps pairs = some (f, steps) ∧ ¬WaitsAtMost n steps := by
  obtain ⟨f, lines, loop, h, -, -, hc, he, -⟩ := C85_pairing pairs (by rintro rfl; simp at hn)
  refine ⟨f, _, h, fun hw => ?_⟩
  have := hw _ loop [] (List.append_nil _).symm hc
  have := loop.count_le_length (a := Step.ell)
  omega

/-- Twenty pairs: 1360 lines, a call, then a loop with 1360 lines and no call. -/
example : ∃ f loop, millerLoopSteps (List.replicate 20 ((G1.one, G2.one) : G1 (FpV adx) × G2 (FpV adx))) =
    some (f, List.replicate 1360 .line ++ [.call] ++ loop) ∧ Step.call ∉ loop ∧ loop.count .ell = 1360 := by
  obtain ⟨f, lines, loop, h, -, hl, hc, he, -⟩ :=
    C85_pairing (List.replicate 20 ((G1.one, G2.one) : G1 (FpV adx) × G2 (FpV adx))) (by simp)
  have h0 : (G2.one : G2 (FpV adx)).isZero = false := Jac.isZero_false.2 G2.one_rep.1
  rw [List.countP_replicate, if_pos (by simp [h0])] at hl
  rw [List.length_replicate] at he
  refine ⟨f, loop, ?_, hc, he⟩
  rw [h, hl, if_pos (by simp)]

/-- Twenty thousand pairs. -/
example : 1000000 < 68 * (List.replicate 20000 ((G1.one, G2.one) : G1 (FpV adx) × G2 (FpV adx))).length := by
  rw [List.length_replicate]; norm_num

/-- C85: `calculate` with a callback that may throw: at most one call, on lists of at least 20 pairs; what it throws goes to the
caller; otherwise the value is the one without a callback. -/
theorem C85_throw (pairs : List (G1 (FpV adx) × G2 (FpV adx))) :
    ∃ v, calculate pairs none () = some (v, ()) ∧ (∀ s : σ, calculateRun pairs (none : Yield σ ε) s = .ok (v, s)) ∧
      ∀ (y : σ → Except ε σ) (s : σ), calculateRun pairs (some y) s =
        if 20 ≤ pairs.length then
          match y s with
          | .ok t => .ok (v, t)
          | .error e => .error (.thrown e)
        else .ok (v, s) :=
  ⟨_, calculate_eq pairs _ _, fun s => by rw [calculateRun_eq], fun y s => calculateRun_eq pairs (some y) s⟩

/-- Twenty pairs and a callback that throws. -/
example : calculateRun (List.replicate 20 ((G1.one, G2.one) : G1 (FpV adx) × G2 (FpV adx)))
    (some fun _ : ℕ => .error "stop") 0 = .error (.thrown "stop") := by
  obtain ⟨v, -, -, h⟩ := C85_throw (σ := ℕ) (ε := String) (List.replicate 20 ((G1.one, G2.one) : G1 (FpV adx) × G2 (FpV adx)))
  rw [h, if_pos (by rw [List.length_replicate])]

end Bls.Props
