import Mathlib.GroupTheory.OrderOfElement
import Mathlib.GroupTheory.Coset.Card
import Mathlib.GroupTheory.Index
import Mathlib.GroupTheory.QuotientGroup.Basic
import Mathlib.FieldTheory.Finite.Basic
import Mathlib.Tactic.LinearCombination

/-! Finite commutative groups with given torsion points. -/

namespace Bls

variable {G : Type*} [AddCommGroup G]

theorem mem_zmultiples_of_smul {r : ℕ} {g : G} {P : G} (h : P ∈ AddSubgroup.zmultiples g) (hg : r • g = 0) : r • P = 0 := by
  obtain ⟨k, rfl⟩ := AddSubgroup.mem_zmultiples_iff.1 h
  rw [smul_comm, hg, smul_zero]

theorem card_zmultiples {r : ℕ} (hr : r.Prime) {g : G} (hg : r • g = 0) (h0 : g ≠ 0) :
    Nat.card (AddSubgroup.zmultiples g) = r := by
  have : Fact r.Prime := ⟨hr⟩
  rw [Nat.card_zmultiples, addOrderOf_eq_prime hg h0]

/-- A second point of order `ℓ`, not a multiple of the first. -/
theorem two_points [Finite G] {l : ℕ} (hl : l.Prime) {U V : G} (hU : l • U = 0) (hV : l • V = 0) (hU0 : U ≠ 0)
    (hVU : V ∉ AddSubgroup.zmultiples U) :
    ∃ m, Nat.card G = l * l * m ∧ ∀ P : G, (l * m) • P = 0 := by
  let A := AddSubgroup.zmultiples U
  let B := AddSubgroup.zmultiples (V : G ⧸ A)
  have hA : Nat.card A = l := card_zmultiples hl hU hU0
  have hB : Nat.card B = l := by
    apply card_zmultiples hl
    · rw [← QuotientAddGroup.mk_nsmul, hV]; rfl
    · intro h
      exact hVU ((QuotientAddGroup.eq_zero_iff _).1 h)
  have h1 : Nat.card G = Nat.card (G ⧸ A) * Nat.card A := AddSubgroup.card_eq_card_quotient_mul_card_addSubgroup A
  have h2 : Nat.card (G ⧸ A) = Nat.card ((G ⧸ A) ⧸ B) * Nat.card B :=
    AddSubgroup.card_eq_card_quotient_mul_card_addSubgroup B
  refine ⟨Nat.card ((G ⧸ A) ⧸ B), by rw [h1, h2, hA, hB]; ring, fun P => ?_⟩
  have h3 : Nat.card ((G ⧸ A) ⧸ B) • (((P : G ⧸ A)) : (G ⧸ A) ⧸ B) = 0 := card_nsmul_eq_zero'
  rw [← QuotientAddGroup.mk_nsmul, QuotientAddGroup.eq_zero_iff] at h3
  obtain ⟨k, hk⟩ := AddSubgroup.mem_zmultiples_iff.1 h3
  rw [← QuotientAddGroup.mk_nsmul, ← QuotientAddGroup.mk_zsmul, eq_comm, ← sub_eq_zero, ← QuotientAddGroup.mk_sub,
    QuotientAddGroup.eq_zero_iff] at hk
  have := mem_zmultiples_of_smul hk hU
  rw [smul_sub, smul_comm l k, hV, smul_zero, sub_zero, ← mul_smul] at this
  exact this

/-- The points of order `r` are the multiples of one of them when `r²` does not divide the order of the group. -/
theorem torsion_cyclic [Finite G] {r : ℕ} (hr : r.Prime) {g : G} (hg : r • g = 0) (h0 : g ≠ 0)
    (hn : ¬ r * r ∣ Nat.card G) {P : G} (hP : r • P = 0) : P ∈ AddSubgroup.zmultiples g := by
  by_contra h
  obtain ⟨m, hm, _⟩ := two_points hr hg hP h0 h
  exact hn ⟨m, hm⟩

theorem prime_dvd_card [Finite G] {r : ℕ} (hr : r.Prime) {g : G} (hg : r • g = 0) (h0 : g ≠ 0) : r ∣ Nat.card G := by
  have : Fact r.Prime := ⟨hr⟩
  rw [← addOrderOf_eq_prime hg h0]
  exact addOrderOf_dvd_natCard g

theorem smul_gcd {a b : ℕ} {P : G} (ha : a • P = 0) (hb : b • P = 0) : Nat.gcd a b • P = 0 := by
  rw [← addOrderOf_dvd_iff_nsmul_eq_zero] at *
  exact Nat.dvd_gcd ha hb

/-- Eigenvectors of an endomorphism for different eigenvalues are independent. -/
theorem eigen_indep {l a b : ℕ} (s : G →+ G) {U V : G} (hU : s U = a • U) (hV : s V = b • V) (hl : l • V = 0)
    (hV0 : V ≠ 0) {c : ℤ} {d : ℤ} (hc : c * ((a : ℤ) - b) = 1 + d * l) : V ∉ AddSubgroup.zmultiples U := by
  intro h
  obtain ⟨k, hk⟩ := AddSubgroup.mem_zmultiples_iff.1 h
  have h1 : (a : ℤ) • V = (b : ℤ) • V := by
    rw [natCast_zsmul V b, ← hV, ← hk, map_zsmul, hU, smul_comm, natCast_zsmul]
  have h2 : (c * ((a : ℤ) - b)) • V = 0 := by rw [mul_smul, sub_smul, h1, sub_self, smul_zero]
  rw [hc, add_smul, one_smul, mul_smul, natCast_zsmul, hl, smul_zero, add_zero] at h2
  exact hV0 h2

/-- `U` and `σ U` are independent if `σ² + σ + 1 = 0` and `-3` is not a square modulo `ℓ`. -/
theorem inert_indep {l : ℕ} (hl : l.Prime) (s : G →+ G) {U : G} (hs : s (s U) + s U + U = 0) (hU : l • U = 0) (hU0 : U ≠ 0)
    (hn : ((-3 : ℤ) : ZMod l) ^ (l / 2) = -1) (h2 : l % 2 = 1) : s U ∉ AddSubgroup.zmultiples U := by
  intro h
  have : Fact l.Prime := ⟨hl⟩
  obtain ⟨k, hk⟩ := AddSubgroup.mem_zmultiples_iff.1 h
  have h1 : (k * k + k + 1) • U = 0 := by
    rw [add_smul, add_smul, one_smul, mul_smul, hk, ← map_zsmul, hk]; exact hs
  have ho : (addOrderOf U : ℤ) ∣ k * k + k + 1 := addOrderOf_dvd_iff_zsmul_eq_zero.2 h1
  rw [addOrderOf_eq_prime hU hU0, ← CharP.intCast_eq_zero_iff (ZMod l) l] at ho
  push_cast at ho
  have h3 : ((-3 : ℤ) : ZMod l) = (2 * (k : ZMod l) + 1) ^ 2 := by push_cast; linear_combination -4 * ho
  rw [h3, ← pow_mul, show 2 * (l / 2) = l - 1 by omega] at hn
  have hl2 : l ≠ 2 := by rintro rfl; simp at h2
  have : Fact (2 < l) := ⟨lt_of_le_of_ne hl.two_le (Ne.symm hl2)⟩
  by_cases h0 : 2 * (k : ZMod l) + 1 = 0
  · rw [h0, zero_pow (by have := hl.two_le; omega)] at hn
    exact absurd hn (by simp)
  · rw [ZMod.pow_card_sub_one_eq_one h0] at hn
    exact ZMod.neg_one_ne_one hn.symm

end Bls
