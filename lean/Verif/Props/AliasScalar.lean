import Verif.Proof.ScalarMem
import Verif.Props.Division
import Verif.Props.Scalar

/-! # C52: `scalar::rsh` and `bn_divn_safe` in place -/

namespace Bls.Props
open Division.Mem (words write Up)

/-- C52: `scalar::rsh` with `out` at or below `in` or behind its end, in particular in place, for every number of bits: only `out`
changes, and it holds the quotient by the power of two of the number before the call. -/
theorem C52_rsh (m : Heap ℕ UInt64) (N out inp bits : ℕ) (h : Up out inp N) :
    ∃ ws, ScalarMem.rsh N out inp bits m = write m out ws ∧ ws.length = N ∧ wordsVal ws = wordsVal (words m inp N) / 2 ^ bits := by
  obtain ⟨h1, h2⟩ := C14_rsh (words m inp N) bits
  rw [Division.Mem.words_length] at h2
  exact ⟨_, ScalarMem.rsh_eq N out inp bits m h, h2, h1⟩

/-- In place. -/
example : words (ScalarMem.rsh 2 7 7 4 fun k => if k = 7 then 0x10 else 0x3) 7 2 = [0x3000000000000001, 0] := by decide +kernel

/-- One word too high: the code reads what it has written. -/
example : words (ScalarMem.rsh 3 8 7 0 fun k => UInt64.ofNat k) 8 3 = [7, 7, 7] := by decide +kernel

/-- C52: `bn_divn_safe` with arguments that overlap in any way: remainder and quotient are those of the values before the call; the
remainder is always in `d`, the quotient in `c` unless `d` lies over it. Nothing else changes. -/
theorem C52_divide (m : Heap ℕ UInt64) (N M c d a b : ℕ) (hMN : M ≤ N) (top : UInt64) (ht : (words m b M).getLast? = some top)
    (h1 : 1 ≤ top.toNat) (h2 : top.toNat < 2 ^ 63 ∨ M < N ∨ 2 ^ (64 * N) ≤ 2 ^ 63 * wordsVal (words m a N)) :
    ∃ m', ScalarMem.divide N M c d a b m = some m' ∧
      wordsVal (words m' d M) = wordsVal (words m a N) % wordsVal (words m b M) ∧
      (d + M ≤ c ∨ c + N ≤ d → wordsVal (words m' c N) = wordsVal (words m a N) / wordsVal (words m b M)) ∧
      ∀ k, (k < c ∨ c + N ≤ k) → (k < d ∨ d + M ≤ k) → m' k = m k := by
  have la := Division.Mem.words_length m N a
  have lb := Division.Mem.words_length m M b
  obtain ⟨q, r, e, lq, lr, hv, hr⟩ := C15_divide (words m a N) (words m b M) (by rw [la, lb]; exact hMN) top ht h1
    (by rw [la, lb]; exact h2)
  rw [la] at lq
  rw [lb] at lr
  have pos : 0 < wordsVal (words m b M) := by omega
  have hq : wordsVal q = wordsVal (words m a N) / wordsVal (words m b M) := by
    rw [hv, Nat.mul_comm, Nat.mul_add_div pos, Nat.div_eq_of_lt hr, Nat.add_zero]
  have hm : wordsVal r = wordsVal (words m a N) % wordsVal (words m b M) := by
    rw [hv, Nat.mul_comm, Nat.mul_add_mod, Nat.mod_eq_of_lt hr]
  refine ⟨write (write m c q) d r, ?_, ?_, fun hcd => ?_, fun k hc hd => ?_⟩
  · rw [ScalarMem.divide, ScalarMem.copyIn_eq, ScalarMem.copyIn_eq, e, Option.map_some, ScalarMem.copyOut_eq, ScalarMem.copyOut_eq]
  · have := ScalarMem.words_write (write m c q) d r
    rw [lr] at this
    rw [this, hm]
  · have := ScalarMem.words_write m c q
    rw [lq] at this
    rw [← hq]
    refine congrArg wordsVal (Eq.trans (Division.Mem.words_congr N c fun k h3 h4 => ?_) this)
    rcases hcd with h | h
    · exact Division.Mem.write_of_ge _ _ _ _ (by rw [lr]; omega)
    · exact Division.Mem.write_of_lt _ _ _ _ (by omega)
  · have w : ∀ (n : ℕ) (f : Heap ℕ UInt64) (x : ℕ) (ws : List UInt64), ws.length = n → (k < x ∨ x + n ≤ k) → write f x ws k = f k := by
      rintro n f x ws rfl (h | h)
      · exact Division.Mem.write_of_lt _ _ _ _ h
      · exact Division.Mem.write_of_ge _ _ _ _ h
    rw [w M _ d r lr hd, w N _ c q lq hc]

/-- All four arguments in one array of one word: 100 divided by itself, the remainder stays. And quotient over dividend, remainder
over divisor: `100 = 14 * 7 + 2`. -/
example : (ScalarMem.divide 1 1 0 0 0 0 fun _ => 100).map (· 0) = some 0 ∧
    (ScalarMem.divide 1 1 0 1 0 1 fun k => if k = 0 then 100 else 7).map (fun m => (m 0, m 1)) = some (14, 2) := by decide +kernel

end Bls.Props
