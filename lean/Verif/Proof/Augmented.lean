import Verif.Proof.Binding

/-!
# A rogue key against two different messages
-/

namespace Bls.Sig
open Bls

variable {K : Type} [Field K] [FpOps K] [LawfulFp K] [DecidableEq K]

attribute [local irreducible] p q hEff2

theorem rogue_two {pk : G1 K} (hpk : pk.isOnCurve FpC.B = true ∧ pk.inCorrectSubgroup = true) (x : List UInt64) {m m' : List UInt8}
    (hm : m.length < 2 ^ 31) (hm' : m'.length < 2 ^ 31) {s : G2 K} (dup : Bool) {e e' : G2 K}
    (he : fromMessage m ciphersuiteId = some e) (he' : fromMessage m' ciphersuiteId = some e') :
    let rogue : G1 K := (Keys.publicKey x : G1 K).subtract pk
    aggregateVerify [pk, rogue] [m, m'] s dup = some true →
    (sign x m = some s → rogue.isZero = true ∨ e.equal e' = true) ∧
    (sign x m' = some s → pk.isZero = true ∨ e.equal e' = true) := by
  intro rogue hv
  obtain ⟨n, hn, h⟩ := member1.1 hpk
  have hx := Keys.publicKey_rep (K := K) x
  have hr : rogue.Rep (wordsVal x • gen1 K - n • gen1 K) := Jac.sub_rep (goodCurve1 K) hx h
  obtain ⟨-, hall, hsum⟩ := (some_true_iff (aggregateVerify_choice [(pk, m), (rogue, m')] s dup (by
    intro y hy
    simp only [List.mem_cons, List.not_mem_nil, or_false] at hy
    rcases hy with rfl | rfl
    · exact hm
    · exact hm'))).1 hv
  obtain ⟨r, hrn, hr'⟩ := member1.1 (hall (rogue, m') (by simp))
  have hadd : wordsVal x • gen1 K = (n + r) • gen1 K := by
    rw [add_nsmul, ← hr.unique hr']; abel
  rw [Keys.smul_gen1_eq_iff] at hadd
  rw [List.map_cons, List.map_cons, List.map_nil, List.sum_cons, List.sum_cons, List.sum_nil, add_zero,
    contrib_eq hm h, contrib_eq hm' hr'] at hsum
  obtain ⟨r1, o1⟩ := hpt_spec (K := K) hm
  obtain ⟨r2, o2⟩ := hpt_spec (K := K) hm'
  have e1 := hm_eq (K := K) hm
  have e2 := hm_eq (K := K) hm'
  rw [he, Option.some.injEq] at e1
  rw [he', Option.some.injEq] at e2
  rw [← e1] at r1
  rw [← e2] at r2
  have fin : ∀ k : ℕ, k • (hpt m : E2 K) = k • hpt m' → ¬ q ∣ k → e.equal e' = true := fun k hk hd => by
    rw [Jac.equal_iff r1 r2]; exact smul_cancel o1 o2 hd hk
  have hxm : ∀ P : E2 K, q • P = 0 → wordsVal x • P = n • P + r • P := fun P o => by
    rw [← add_nsmul, ← smul_mod o, hadd, smul_mod o]
  have sg : ∀ {u : List UInt8} {a : G2 K} {P : E2 K}, fromMessage u ciphersuiteId = some a → a.Rep P → sign x u = some s →
      s.Rep (wordsVal x • P) := fun ha hr hs => by
    rw [sign, ha, Option.map_some] at hs
    obtain rfl := Option.some.inj hs
    exact Jac.scale_rep (goodCurve2 K) hr x
  refine ⟨fun hs => ?_, fun hs => ?_⟩
  · have := hsum.unique (sg he r1 hs)
    rw [hxm _ o1] at this
    by_cases hd : q ∣ r
    · left
      obtain ⟨c, rfl⟩ := hd
      rw [hr'.isZero_iff, mul_comm, mul_nsmul', q_smul_gen1, nsmul_zero]
    · exact Or.inr (fin r (add_left_cancel this).symm hd)
  · have := hsum.unique (sg he' r2 hs)
    rw [hxm _ o2] at this
    by_cases hd : q ∣ n
    · left
      obtain ⟨c, rfl⟩ := hd
      rw [h.isZero_iff, mul_comm, mul_nsmul', q_smul_gen1, nsmul_zero]
    · exact Or.inr (fin n (add_right_cancel this) hd)

end Bls.Sig
