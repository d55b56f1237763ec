import Verif.Proof.InverseBranches
import Verif.Props.Inverse

/-!
# C100: what the branches of `fp::inverse` show
-/

namespace Bls.Props
open Bls Fp Kaliski

set_option exponentiation.threshold 1000
set_option maxRecDepth 100000

/-- C100: for every canonical element but zero the branches are those of the algorithm on integers, one for each round (C69). -/
theorem C100_branches (x : Fp) (hx : x.Valid) (h0 : x ≠ Fp.zero) :
    ∃ k, invRounds x = some k ∧ StopsAt x.val k ∧ inverseBranches x = branches x.val k ∧ (inverseBranches x).length = k := by
  have hn : x.val ≠ 0 := fun h => h0 (Fp.val_inj (h.trans (by decide +kernel)))
  obtain ⟨k, e, hk, -⟩ := C69_rounds x hx h0
  have := inverseBranches_eq hn hx hk
  exact ⟨k, e, hk, this, by rw [this, branches, List.length_map, List.length_range]⟩

example : ∃ k, invRounds Fp.R2 = some k ∧ (inverseBranches Fp.R2).length = k := by
  obtain ⟨k, h, -, -, h'⟩ := C100_branches Fp.R2 (by decide +kernel) (by decide +kernel)
  exact ⟨k, h, h'⟩

/-- C100: the element is computed from the branches, by doublings and additions. -/
theorem C100_rebuild (x : Fp) (hx : x.Valid) (h0 : x ≠ Fp.zero) : rebuild (inverseBranches x) = (p, x.val) := by
  have hn : x.val ≠ 0 := fun h => h0 (Fp.val_inj (h.trans (by decide +kernel)))
  obtain ⟨k, -, hk, e, -⟩ := C100_branches x hx h0
  rw [e]
  exact rebuild_branches hn hx hk

/-- The first branches for the words of 5, which take 381 rounds; 5 is rebuilt from all of them. -/
example : (inverseBranches ⟨5, 0, 0, 0, 0, 0⟩).take 3 = [.uLarger, .uLarger, .uLarger] ∧
    (rebuild (inverseBranches ⟨5, 0, 0, 0, 0, 0⟩)).2 = 5 :=
  ⟨by decide +kernel, (congrArg Prod.snd (C100_rebuild ⟨5, 0, 0, 0, 0, 0⟩ (by decide +kernel) (by decide +kernel))).trans (by decide +kernel)⟩

/-- C100: so different elements never take the same branches. -/
theorem C100_leak (x x' : Fp) (hx : x.Valid) (hx' : x'.Valid) : inverseBranches x = inverseBranches x' ↔ x = x' := by
  refine ⟨fun e => ?_, fun e => by rw [e]⟩
  have hz : inverseBranches Fp.zero = [] := by
    rw [inverseBranches, if_pos (by decide)]
  have ne : ∀ y : Fp, y.Valid → y ≠ Fp.zero → inverseBranches y ≠ [] := by
    intro y hy h0 h
    have := C100_rebuild y hy h0
    rw [h] at this
    exact absurd (congrArg Prod.fst this) (show (1 : ℕ) ≠ p by decide +kernel)
  by_cases h : x = Fp.zero <;> by_cases h' : x' = Fp.zero
  · rw [h, h']
  · exact absurd (e.symm.trans (by rw [h, hz])) (ne x' hx' h')
  · exact absurd (e.trans (by rw [h', hz])) (ne x hx h)
  · have a := C100_rebuild x hx h
    rw [e, C100_rebuild x' hx' h'] at a
    exact Fp.val_inj (congrArg Prod.snd a).symm

example : inverseBranches Fp.R1 ≠ inverseBranches (X86.neg Fp.R1) := fun h =>
  absurd ((C100_leak _ _ (by decide +kernel) (by decide +kernel)).1 h) (by decide +kernel)

/-- C100: what `affine` inverts in `public_key` is known to who sees the branches: the coordinate `z` of the multiple of the
generator, unless it is zero. -/
theorem C100_public_key (adx : Bool) (sk : List UInt64) (h : (((G1.one : G1 (FpV adx)).scale sk).z).1 ≠ Fp.zero) :
    rebuild (inverseBranches (((G1.one : G1 (FpV adx)).scale sk).z).1) = (p, (((G1.one : G1 (FpV adx)).scale sk).z).1.val) :=
  C100_rebuild _ (((G1.one : G1 (FpV adx)).scale sk).z).2 h

/-- The keys 9 and 10 are told apart. -/
example (adx : Bool) : inverseBranches (((G1.one : G1 (FpV adx)).scale [9, 0, 0, 0]).z).1 ≠
    inverseBranches (((G1.one : G1 (FpV adx)).scale [10, 0, 0, 0]).z).1 := by
  obtain ⟨h9, h10⟩ := C69_key_times adx
  have z : ∀ y : Fp, ∀ k, invRounds y = some k → y ≠ Fp.zero := by
    rintro y k h rfl
    rw [invRounds, if_pos (by decide)] at h
    cases h
  intro e
  have a := congrArg Prod.snd (C100_public_key adx [9, 0, 0, 0] (z _ _ h9))
  rw [e, C100_public_key adx [10, 0, 0, 0] (z _ _ h10)] at a
  rw [← Fp.val_inj a, h10] at h9
  exact absurd h9 (by decide)

end Bls.Props
