import Verif.Model.ScalarMem
import Verif.Proof.DivisionMem
import Mathlib.Data.List.GetD

/-! `scalar::rsh` and `bn_divn_safe` on memory. -/

namespace Bls.ScalarMem
open Division.Mem (words write Up)

theorem copyIn_eq (m : Heap ℕ UInt64) (a n : ℕ) : copyIn m a n = words m a n := by
  apply List.ext_getElem (by rw [Division.Mem.words_length, copyIn, List.length_map, List.length_range])
  intro i h1 h2
  rw [Division.Mem.words_get]
  simp [copyIn]

theorem copyOut_eq (m : Heap ℕ UInt64) (c : ℕ) (ws : List UInt64) : copyOut m c ws = write m c ws := by
  funext k
  rw [copyOut]
  split
  · rename_i h
    have := Division.Mem.write_get ws m c (k - c) (by omega)
    rw [show c + (k - c) = k by omega] at this
    rw [this, List.getD_eq_getElem _ _ (by omega)]
  · rcases Nat.lt_or_ge k c with h1 | h1
    · exact (Division.Mem.write_of_lt m ws c k h1).symm
    · exact (Division.Mem.write_of_ge ws m c k (by omega)).symm

theorem words_getD (m : Heap ℕ UInt64) (a n i : ℕ) (h : i < n) : (words m a n).getD i 0 = m (a + i) := by
  rw [List.getD_eq_getElem _ _ (by rw [Division.Mem.words_length]; exact h), Division.Mem.words_get]

theorem rsh_aux (N out inp bits : ℕ) (m : Heap ℕ UInt64) (h : Up out inp N) (n : ℕ) (hn : n ≤ N) :
    (List.range n).foldl (fun m i =>
      let numBytes := bits / 64
      let numBits := bits % 64
      let vFrom := if i + numBytes ≥ N then 0 else m (inp + (i + numBytes))
      let vFromP1 := if i + numBytes + 1 ≥ N then 0 else m (inp + (i + numBytes + 1))
      m.put (out + i)
        (if numBits ≠ 0 then vFrom >>> UInt64.ofNat numBits ||| vFromP1 <<< UInt64.ofNat (64 - numBits) else vFrom)) m =
      write m out ((List.range n).map (Scalar.rshWord (words m inp N) bits)) := by
  induction n with
  | zero => rfl
  | succ n ih =>
    have l : ((List.range n).map (Scalar.rshWord (words m inp N) bits)).length = n := by simp
    have same : ∀ k, inp + n ≤ k → k < inp + N → write m out ((List.range n).map (Scalar.rshWord (words m inp N) bits)) k = m k := by
      intro k h1 h2
      rcases h with h | h
      · exact Division.Mem.write_of_ge _ _ _ _ (by rw [l]; omega)
      · exact Division.Mem.write_of_lt _ _ _ _ (by omega)
    rw [List.range_succ, List.foldl_append, ih (by omega), List.map_append, List.map_singleton, Division.Mem.write_snoc, l]
    generalize write m out ((List.range n).map (Scalar.rshWord (words m inp N) bits)) = f at *
    rw [List.foldl_cons, List.foldl_nil, Scalar.rshWord, Division.Mem.words_length]
    dsimp only
    have e1 : (if n + bits / 64 ≥ N then 0 else f (inp + (n + bits / 64))) =
        if n + bits / 64 ≥ N then 0 else (words m inp N).getD (n + bits / 64) 0 := by
      split
      · rfl
      · rw [words_getD _ _ _ _ (by omega), same _ (by omega) (by omega)]
    have e2 : (if n + bits / 64 + 1 ≥ N then 0 else f (inp + (n + bits / 64 + 1))) =
        if n + bits / 64 + 1 ≥ N then 0 else (words m inp N).getD (n + bits / 64 + 1) 0 := by
      split
      · rfl
      · rw [words_getD _ _ _ _ (by omega), same _ (by omega) (by omega)]
    rw [e1, e2]

theorem rsh_eq (N out inp bits : ℕ) (m : Heap ℕ UInt64) (h : Up out inp N) :
    rsh N out inp bits m = write m out (Scalar.rsh (words m inp N) bits) := by
  rw [rsh, rsh_aux N out inp bits m h N le_rfl, Scalar.rsh, Division.Mem.words_length]

theorem words_write (m : Heap ℕ UInt64) (c : ℕ) (ws : List UInt64) : words (write m c ws) c ws.length = ws := by
  apply List.ext_getElem (Division.Mem.words_length _ _ _)
  intro i h1 h2
  rw [Division.Mem.words_get, Division.Mem.write_get _ _ _ _ h2]

end Bls.ScalarMem
