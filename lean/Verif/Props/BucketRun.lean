import Verif.Proof.BucketRun
import Verif.Props.Group

/-!
# C99: what the accesses of `weightedSum` show
-/

namespace Bls.Props
open Bls Jac

variable {adx : Bool}

/-- C99: `weightedSum` with its accesses returns what `weightedSum` returns (C25), and the accesses are those of the bucket
method for the values of the scalars; they do not depend on the points. -/
theorem C99_accesses (scalars : List (List UInt64)) :
    (∀ points : List (G1 (FpV adx)), min scalars.length points.length < 2 ^ 64 → weightedSumAccesses points scalars =
      (weightedSum points scalars, accessPattern ((scalars.take (min scalars.length points.length)).map wordsVal))) ∧
    (∀ points : List (G2 (FpV adx)), min scalars.length points.length < 2 ^ 64 → weightedSumAccesses points scalars =
      (weightedSum points scalars, accessPattern ((scalars.take (min scalars.length points.length)).map wordsVal))) :=
  ⟨fun points hn => weightedSumAccesses_eq points scalars hn, fun points hn => weightedSumAccesses_eq points scalars hn⟩

/-- The last accesses of a run for the scalars 8 and 1: in the second window (digits 1 and 0) the first point is put into bucket 0
and the second is not used. -/
example : (windowPattern 3 [8, 1] 1).drop 7 = [.scalar 0, .put 0 0, .scalar 1, .sum 6, .sum 5, .sum 4, .sum 3, .sum 2, .sum 1, .sum 0] := by
  decide +kernel

example : (weightedSumAccesses [(G1.one : G1 (FpV adx)), G1.one] [[8, 0, 0, 0], [1, 0, 0, 0]]).2 = accessPattern [8, 1] ∧
    (accessPattern [8, 1]).length = 86 * 16 + 2 + 86 := by
  refine ⟨?_, by decide +kernel⟩
  rw [(C99_accesses [[8, 0, 0, 0], [1, 0, 0, 0]]).1 [(G1.one : G1 (FpV adx)), G1.one] (show 2 < 2 ^ 64 by norm_num)]
  show accessPattern ([[8, 0, 0, 0], [1, 0, 0, (0 : UInt64)]].map wordsVal) = _
  rw [show [[8, 0, 0, 0], [1, 0, 0, (0 : UInt64)]].map wordsVal = [8, 1] by decide +kernel]

/-- C99: for lists of given lengths the accesses determine every scalar that is used, and are determined by these: an observer
of the addresses learns all of them, and nothing about the points. -/
theorem C99_leak (points points' : List (G1 (FpV adx))) (scalars scalars' : List (List UInt64))
    (hs : ∀ s ∈ scalars, s.length = 4) (hs' : ∀ s ∈ scalars', s.length = 4)
    (hp : points.length = points'.length) (hl : scalars.length = scalars'.length) (hn : min scalars.length points.length < 2 ^ 64) :
    (weightedSumAccesses points scalars).2 = (weightedSumAccesses points' scalars').2 ↔
      (scalars.take points.length).map wordsVal = (scalars'.take points.length).map wordsVal := by
  rw [(C99_accesses scalars).1 points hn, (C99_accesses scalars').1 points' (by rw [← hl, ← hp]; exact hn), ← hl, ← hp]
  have t : ∀ ss : List (List UInt64), ss.length = scalars.length → ss.take (min scalars.length points.length) = ss.take points.length := by
    intro ss h
    rw [← h, min_comm, ← List.take_take, List.take_of_length_le le_rfl]
  have b : ∀ ss : List (List UInt64), (∀ s ∈ ss, s.length = 4) → ∀ v ∈ (ss.take points.length).map wordsVal, v < 2 ^ 256 := by
    intro ss h v hv
    obtain ⟨s, hs, rfl⟩ := List.mem_map.1 hv
    have := wordsVal_lt s
    rwa [h s (List.mem_of_mem_take hs)] at this
  rw [t _ rfl, t _ hl.symm]
  exact accessPattern_inj _ _ (by rw [List.length_map, List.length_map, List.length_take, List.length_take, hl]) (b _ hs) (b _ hs')

/-- The scalars 5 and 6 for the generator are told apart; another point instead of the generator is not. -/
example (P : G1 (FpV adx)) :
    (weightedSumAccesses [(G1.one : G1 (FpV adx))] [[5, 0, 0, 0]]).2 ≠ (weightedSumAccesses [(G1.one : G1 (FpV adx))] [[6, 0, 0, 0]]).2 ∧
    (weightedSumAccesses [(G1.one : G1 (FpV adx))] [[5, 0, 0, 0]]).2 = (weightedSumAccesses [P] [[5, 0, 0, 0]]).2 := by
  have n : min [[(5 : UInt64), 0, 0, 0]].length [(G1.one : G1 (FpV adx))].length < 2 ^ 64 := show 1 < 2 ^ 64 by norm_num
  refine ⟨fun h => ?_, (C99_leak [(G1.one : G1 (FpV adx))] [P] [[5, 0, 0, 0]] [[5, 0, 0, 0]] (by simp) (by simp) rfl rfl n).2 rfl⟩
  have := (C99_leak [(G1.one : G1 (FpV adx))] [G1.one] [[5, 0, 0, 0]] [[6, 0, 0, 0]] (by simp) (by simp) rfl rfl n).1 h
  revert this
  show ¬ ([[5, 0, 0, (0 : UInt64)]].map wordsVal = [[6, 0, 0, (0 : UInt64)]].map wordsVal)
  decide +kernel

/-- C99: the same in `g2`. -/
theorem C99_leak_g2 (points points' : List (G2 (FpV adx))) (scalars scalars' : List (List UInt64))
    (hs : ∀ s ∈ scalars, s.length = 4) (hs' : ∀ s ∈ scalars', s.length = 4)
    (hp : points.length = points'.length) (hl : scalars.length = scalars'.length) (hn : min scalars.length points.length < 2 ^ 64) :
    (weightedSumAccesses points scalars).2 = (weightedSumAccesses points' scalars').2 ↔
      (scalars.take points.length).map wordsVal = (scalars'.take points.length).map wordsVal := by
  have one : ∀ n, ∃ l : List (G1 (FpV adx)), l.length = n := fun n => ⟨List.replicate n G1.one, List.length_replicate⟩
  obtain ⟨l, h⟩ := one points.length
  have := C99_leak l l scalars scalars' hs hs' rfl hl (by rw [h]; exact hn)
  rw [(C99_accesses scalars).1 l (by rw [h]; exact hn), (C99_accesses scalars').1 l (by rw [← hl, h]; exact hn), h] at this
  rw [(C99_accesses scalars).2 points hn, (C99_accesses scalars').2 points' (by rw [← hl, ← hp]; exact hn), ← hp]
  exact this

example : (weightedSumAccesses [(G2.one : G2 (FpV adx)), G2.one] [[5, 0, 0, 1], [7, 0, 0, 0]]).2 ≠
    (weightedSumAccesses [(G2.one : G2 (FpV adx)), G2.one] [[5, 0, 0, 1], [7, 0, 0, 1]]).2 := fun h => by
  have := (C99_leak_g2 [(G2.one : G2 (FpV adx)), G2.one] [G2.one, G2.one] [[5, 0, 0, 1], [7, 0, 0, 0]] [[5, 0, 0, 1], [7, 0, 0, 1]]
    (by simp) (by simp) rfl rfl (show 2 < 2 ^ 64 by norm_num)).1 h
  revert this
  show ¬ ([[5, 0, 0, (1 : UInt64)], [7, 0, 0, 0]].map wordsVal = [[5, 0, 0, (1 : UInt64)], [7, 0, 0, 1]].map wordsVal)
  decide +kernel

end Bls.Props
