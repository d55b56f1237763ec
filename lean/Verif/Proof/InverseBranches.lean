import Verif.Spec.InverseBranches
import Verif.Proof.Kaliski

/-! # The branches of `fp::inverse` -/

namespace Bls.Kaliski

theorem undo_step (t : State) : undo (branch t) ((step t).u, (step t).v) = (t.u, t.v) := by
  obtain ⟨u, v, s, r⟩ := t
  unfold branch step
  dsimp only
  split_ifs with h1 h2 h3 <;> simp only [undo, Prod.mk.injEq]
  · exact ⟨by omega, trivial⟩
  · exact ⟨trivial, by omega⟩
  · exact ⟨by omega, trivial⟩
  · exact ⟨trivial, by omega⟩

theorem rebuild_from (a : ℕ) (n : ℕ) : ∀ i, ((List.range' i n).map fun j => branch (state a j)).foldr undo
    ((state a (i + n)).u, (state a (i + n)).v) = ((state a i).u, (state a i).v) := by
  induction n with
  | zero => intro i; rfl
  | succ n ih =>
    intro i
    rw [List.range'_succ, List.map_cons, List.foldr_cons]
    have := ih (i + 1)
    rw [show i + 1 + n = i + (n + 1) by omega] at this
    rw [this, state_succ]
    exact undo_step _

theorem rebuild_branches {a k : ℕ} (ha : a ≠ 0) (hp : a < p) (hk : StopsAt a k) : rebuild (branches a k) = (p, a) := by
  have := rebuild_from a k 0
  obtain ⟨I, -⟩ := inv_state ha hp k hk.2
  have hu : (state a k).u = 1 := by
    have := I.cop
    rwa [hk.1, Nat.coprime_zero_right] at this
  rw [Nat.zero_add, hu, hk.1, ← List.range_eq_range'] at this
  exact this

end Bls.Kaliski

namespace Bls.Fp
open Kaliski

theorem invBranch_val (t : InvVars) : invBranch t = branch t.val := by
  unfold invBranch branch InvVars.val
  simp only [isEven_iff, lt_iff]

theorem branches_from {x : Fp} (hx : x.val ≠ 0) (hp : x.val < p) {k : ℕ} (hk : StopsAt x.val k) : ∀ n i, i + n = k → ∀ m, n < m →
    invBranchesLoop m (invStep^[i] (invStart x)) = (List.range' i n).map fun j => branch (state x.val j)
  | 0, i, e, m, hm => by
    obtain ⟨m, rfl⟩ : ∃ j, m = j + 1 := ⟨m - 1, by omega⟩
    obtain rfl : i = k := by omega
    have h0 : (invStep^[i] (invStart x)).v.isZero = true := by
      rw [Fp.isZero_iff]
      have := vars_val hx hp i hk.2
      exact (congrArg State.v this).trans hk.1
    rw [invBranchesLoop, if_pos h0]
    rfl
  | n + 1, i, e, m, hm => by
    obtain ⟨m, rfl⟩ : ∃ j, m = j + 1 := ⟨m - 1, by omega⟩
    have hv := vars_val hx hp i fun j hj => hk.2 j (by omega)
    have h0 : ¬ (invStep^[i] (invStart x)).v.isZero = true := by
      rw [Fp.isZero_iff]
      intro h
      exact hk.2 i (by omega) ((congrArg State.v hv).symm.trans h)
    have := branches_from hx hp hk n (i + 1) (by omega) m (by omega)
    rw [Function.iterate_succ_apply'] at this
    rw [invBranchesLoop, if_neg h0, this, List.range'_succ, List.map_cons, invBranch_val, hv]

theorem inverseBranches_eq {x : Fp} (hx : x.val ≠ 0) (hp : x.val < p) {k : ℕ} (hk : StopsAt x.val k) :
    inverseBranches x = branches x.val k := by
  have hb := hk.bounds hx hp
  have := branches_from hx hp hk k 0 (by omega) 768 (by omega)
  rw [inverseBranches, if_neg (by rw [Fp.isZero_iff]; exact hx), branches, List.range_eq_range']
  exact this

end Bls.Fp
