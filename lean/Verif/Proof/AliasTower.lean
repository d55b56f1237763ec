import Verif.Proof.Alias
import Verif.Proof.Groups

/-!
# `fp6::mulBy01Assign` whose arguments are members of the object
-/

namespace Bls.Fp6.Mem
open Heap

variable {L : Type} [DecidableEq L] {K : Type} [Field K] [DecidableEq K] [FpOps K] [LawfulFp K]

/-- The result for every pair of references. -/
theorem mulBy01Assign_val (o : L) (e0 e1 : Ref L) (m : Heap L (Fp6 K)) :
    mulBy01Assign o e0 e1 m = m.put o ⟨(m o * ⟨e0.get m, e1.get m, 0⟩).c0,
      (m o * ⟨e0.get m, e1.get m, 0⟩).c1 + (((if e0 = .c2 o then 1 else 0) + (if e1 = .c2 o then 1 else 0)) *
        (((m o).c0 + (m o).c1) * (e0.get m * (m o).c2 + e1.get m * (m o).c1 - (m o).c2))),
      (m o * ⟨e0.get m, e1.get m, 0⟩).c2⟩ := by
  unfold mulBy01Assign
  simp only [put_self, put_put]
  have hg : ∀ (e : Ref L) (v : Fp2 K), e.get (m.put o { m o with c2 := v }) = e.get m + (if e = .c2 o then 1 else 0) * (v - (m o).c2) := by
    intro e v
    by_cases h : e = .c2 o
    · subst h
      rw [if_pos rfl]
      simp only [Ref.get, put_self]
      ring
    · rw [Ref.get_put _ _ _ h, if_neg h]; ring
  rw [hg e0, hg e1]
  generalize (if e0 = .c2 o then (1 : Fp2 K) else 0) = k0
  generalize (if e1 = .c2 o then (1 : Fp2 K) else 0) = k1
  generalize e0.get m = a
  generalize e1.get m = b
  generalize m o = x
  congr 1
  ext1 <;> simp only [ops_eq, Fp6.mul_c0, Fp6.mul_c1, Fp6.mul_c2] <;> ring

theorem put_inj {T : Type} (m : Heap L T) (o : L) (v w : T) : m.put o v = m.put o w ↔ v = w := by
  constructor
  · intro h
    have := congrFun h o
    rwa [put_self, put_self] at this
  · rintro rfl; rfl

theorem mulBy01Assign_iff [IsFp K] (o : L) (e0 e1 : Ref L) (m : Heap L (Fp6 K)) :
    mulBy01Assign o e0 e1 m = m.put o (m o * ⟨e0.get m, e1.get m, 0⟩) ↔
      (e0 ≠ .c2 o ∧ e1 ≠ .c2 o) ∨
      ((m o).c0 + (m o).c1) * (e0.get m * (m o).c2 + e1.get m * (m o).c1 - (m o).c2) = 0 := by
  rw [mulBy01Assign_val, put_inj]
  generalize ((m o).c0 + (m o).c1) * (e0.get m * (m o).c2 + e1.get m * (m o).c1 - (m o).c2) = d
  generalize m o * ⟨e0.get m, e1.get m, 0⟩ = y
  have hy : ∀ t : Fp2 K, (⟨y.c0, y.c1 + t, y.c2⟩ : Fp6 K) = y ↔ t = 0 := by
    intro t
    constructor
    · intro h
      have := congrArg Fp6.c1 h
      dsimp only at this
      linear_combination this
    · rintro rfl
      rw [add_zero]
  rw [hy, mul_eq_zero]
  by_cases h0 : e0 = .c2 o <;> by_cases h1 : e1 = .c2 o <;> simp [h0, h1]
  intro h
  exact absurd (by linear_combination h) (Fp2.two_ne_zero' (K := K))

end Bls.Fp6.Mem
