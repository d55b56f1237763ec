import Verif.Proof.Kaliski
import Verif.Model.FpV
import Verif.Model.Keys

/-!
# C69: how long `fp::inverse` runs

`invRounds`: how often the body of the loop runs. `Kaliski.StopsAt`: the same algorithm on integers of any size.
-/

namespace Bls.Props
open Bls Fp Kaliski

set_option exponentiation.threshold 1000
set_option maxRecDepth 100000

/-- C69: for every canonical element but zero the loop ends by `v.isZero()`, as the algorithm on integers does, after at least
381 and at most 762 rounds. -/
theorem C69_rounds (x : Fp) (hx : x.Valid) (h0 : x ≠ Fp.zero) :
    ∃ k, invRounds x = some k ∧ StopsAt x.val k ∧ 381 ≤ k ∧ k ≤ 762 := by
  have hn : x.val ≠ 0 := fun h => h0 (Fp.val_inj (h.trans (by decide +kernel)))
  obtain ⟨k, hk⟩ := stops hn hx
  exact ⟨k, invRounds_eq hn hx hk, hk, hk.bounds hn hx⟩

/-- C69: no overflow. After every round the words hold the integers of the algorithm, and these are at most `p` in `u`, `v` and
`s` and below `2 p` in `r`. -/
theorem C69_sizes (x : Fp) (hx : x.Valid) (h0 : x ≠ Fp.zero) (k i : ℕ) (hk : invRounds x = some k) (hi : i ≤ k) :
    (invStep^[i] (invStart x)).u.val = (state x.val i).u ∧ (invStep^[i] (invStart x)).v.val = (state x.val i).v ∧
    (invStep^[i] (invStart x)).s.val = (state x.val i).s ∧ (invStep^[i] (invStart x)).r.val = (state x.val i).r ∧
    (state x.val i).u ≤ p ∧ (state x.val i).v ≤ p ∧ (state x.val i).s ≤ p ∧ (state x.val i).r < 2 * p := by
  have hn : x.val ≠ 0 := fun h => h0 (Fp.val_inj (h.trans (by decide +kernel)))
  obtain ⟨k', e, hk', -⟩ := C69_rounds x hx h0
  obtain rfl := Option.some.inj (hk.symm.trans e)
  have hr : ∀ j < i, (state x.val j).v ≠ 0 := fun j hj => hk'.2 j (by omega)
  have hv := vars_val hn hx i hr
  obtain ⟨I, -, -, h1, h2⟩ := inv_state hn hx i hr
  refine ⟨congrArg State.u hv, congrArg State.v hv, congrArg State.s hv, congrArg State.r hv, h1, h2.trans hx.le, ?_, ?_⟩
  · have := I.sum
    exact (Nat.le_mul_of_pos_left _ I.hu).trans (by omega)
  · cases i with
    | zero => exact Nat.mul_pos (by norm_num) X86.p_pos
    | succ i =>
      rw [state_succ]
      exact (step_r (inv_state hn hx i fun j hj => hr j (by omega)).1 (hr i (by omega))).2

/-- C69, the remark in the source: the branch `k <= 384` is taken for `fp::one()` and for no other element. -/
def C69_remark : Prop := ∀ x : Fp, x.Valid → x ≠ Fp.zero → ((∃ k ≤ 384, invRounds x = some k) ↔ x = Fp.R1)

/-- C69: the remark is false. The branch is taken for `fp::one()`, but also for its opposite and for the words of 1 and of 5. -/
theorem C69_remark_false : ¬ C69_remark ∧ invRounds Fp.R1 = some 384 ∧ invRounds (X86.neg Fp.R1) = some 384 ∧
    invRounds ⟨1, 0, 0, 0, 0, 0⟩ = some 381 ∧ invRounds ⟨5, 0, 0, 0, 0, 0⟩ = some 381 := by
  have h : ∀ (x : Fp) (k : ℕ), x.val ≠ 0 → x.Valid → count 1000 0 ⟨p, x.val, 1, 0⟩ = some k → invRounds x = some k :=
    fun x k h0 hx hc => invRounds_eq h0 hx (stops_of_count hc)
  have h1 : invRounds ⟨1, 0, 0, 0, 0, 0⟩ = some 381 := h _ _ (by decide +kernel) (by decide +kernel) (by decide +kernel)
  refine ⟨fun hr => ?_, h _ _ (by decide +kernel) (by decide +kernel) (by decide +kernel),
    h _ _ (by decide +kernel) (by decide +kernel) (by decide +kernel), h1,
    h _ _ (by decide +kernel) (by decide +kernel) (by decide +kernel)⟩
  have := (hr ⟨1, 0, 0, 0, 0, 0⟩ (by decide +kernel) (by decide +kernel)).1 ⟨381, by norm_num, h1⟩
  revert this
  decide +kernel

/-- C69: the running time depends on the element: 381 rounds for the words of 1, 761 for those of `2^380`. -/
theorem C69_times : invRounds ⟨1, 0, 0, 0, 0, 0⟩ = some 381 ∧ invRounds ⟨0, 0, 0, 0, 0, 0x1000000000000000⟩ = some 761 :=
  ⟨C69_remark_false.2.2.2.1, invRounds_eq (by decide +kernel) (by decide +kernel) (stops_of_count (by decide +kernel))⟩

/-- C69: the time of `public_key` therefore depends on more than the length of the secret key and the number of its ones: `affine`
inverts the `z` of the multiple, in 513 rounds for the key 9 and in 538 for the key 10. -/
theorem C69_key_times (adx : Bool) :
    invRounds (((G1.one : G1 (FpV adx)).scale [9, 0, 0, 0]).z).1 = some 513 ∧
    invRounds (((G1.one : G1 (FpV adx)).scale [10, 0, 0, 0]).z).1 = some 538 := by
  have h : ∀ (n : UInt64) (w : Fp) (k : ℕ), (((G1.one : G1 (FpV adx)).scale [n, 0, 0, 0]).z).1 = w → w.val ≠ 0 → w.Valid →
      count 1000 0 ⟨p, w.val, 1, 0⟩ = some k → invRounds (((G1.one : G1 (FpV adx)).scale [n, 0, 0, 0]).z).1 = some k :=
    fun n w k e h0 hw hc => by rw [e]; exact invRounds_eq h0 hw (stops_of_count hc)
  exact ⟨h 9 ⟨17580219755352188706, 14338263016342106419, 15491498421402910946, 12173967382676770512, 11182701726545718382,
    236444705194634701⟩ 513 (by cases adx <;> decide +kernel) (by decide +kernel) (by decide +kernel) (by decide +kernel),
    h 10 ⟨3924037233211776303, 1472457895815795675, 11850255800450185098, 12044489639880752785, 18050491189535170581,
    1788342185834939262⟩ 538 (by cases adx <;> decide +kernel) (by decide +kernel) (by decide +kernel) (by decide +kernel)⟩

example : ∃ k, invRounds Fp.R2 = some k ∧ StopsAt Fp.R2.val k ∧ 381 ≤ k ∧ k ≤ 762 :=
  C69_rounds _ (by decide +kernel) (by decide +kernel)

example : (state Fp.R1.val 300).r < 2 * p :=
  (C69_sizes Fp.R1 (by decide +kernel) (by decide +kernel) 384 300 C69_remark_false.2.1 (by norm_num)).2.2.2.2.2.2.2

end Bls.Props
