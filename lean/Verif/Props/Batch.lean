import Verif.Proof.Batch
import Verif.Proof.Subgroup2
import Verif.Proof.HashValues
import Verif.Props.Signatures

/-!
# C78: many signatures tested at once with random weights

The usual test of a batch: every key and every signature is multiplied by a weight, the signatures are added up and
`aggregate_verify` is called once, without the test for equal messages.
-/

namespace Bls.Props
open Bls Sig

attribute [local irreducible] p q hEff2

variable {adx : Bool} {n : ℕ}

/-- C78: a batch of valid signatures is accepted with all weights. -/
theorem C78_complete (pk : Fin n → G1 (FpV adx)) (m : Fin n → List UInt8) (s : Fin n → G2 (FpV adx)) (w : Fin n → List UInt64)
    (hw : ∀ i, (w i).length = 4) (hm : ∀ i, (m i).length < 2 ^ 31) (h : ∀ i, verify (pk i) (m i) (s i) = some true) :
    aggregateVerify (List.ofFn fun i => (pk i).scale (w i)) (List.ofFn m)
      (Jac.weightedSum (List.ofFn s) (List.ofFn w)) false = some true := batch_complete w hw hm h

/-- C78: if the points are in their groups and signature `j` is not valid, then given the weights of the others there is at
most one weight modulo `q` for which the batch is accepted. -/
theorem C78_weight (pk : Fin n → G1 (FpV adx)) (m : Fin n → List UInt8) (s : Fin n → G2 (FpV adx)) (w w' : Fin n → List UInt64)
    (hw : ∀ i, (w i).length = 4) (hw' : ∀ i, (w' i).length = 4) (hm : ∀ i, (m i).length < 2 ^ 31)
    (hpk : ∀ i, Member1 (pk i)) (hs : ∀ i, Member2 (s i)) (j : Fin n) (hj : verify (pk j) (m j) (s j) ≠ some true)
    (he : ∀ i, i ≠ j → w i = w' i)
    (h : aggregateVerify (List.ofFn fun i => (pk i).scale (w i)) (List.ofFn m)
      (Jac.weightedSum (List.ofFn s) (List.ofFn w)) false = some true)
    (h' : aggregateVerify (List.ofFn fun i => (pk i).scale (w' i)) (List.ofFn m)
      (Jac.weightedSum (List.ofFn s) (List.ofFn w')) false = some true) :
    wordsVal (w j) % q = wordsVal (w' j) % q := batch_weight w w' hw hw' hpk hm hs j hj he h h'

/-- C78: if the points are in their groups and one of the signatures is not valid, at most one in `N` choices of the weights from
`N` values that differ modulo `q` makes the batch accepted. -/
theorem C78_count (pk : Fin n → G1 (FpV adx)) (m : Fin n → List UInt8) (s : Fin n → G2 (FpV adx))
    (hm : ∀ i, (m i).length < 2 ^ 31) (hpk : ∀ i, Member1 (pk i)) (hs : ∀ i, Member2 (s i))
    (hj : ∃ j, verify (pk j) (m j) (s j) ≠ some true) {N : ℕ} (W : Fin N → List UInt64) (hW : ∀ k, (W k).length = 4)
    (hd : ∀ k l, wordsVal (W k) % q = wordsVal (W l) % q → k = l) :
    {c : Fin n → Fin N | aggregateVerify (List.ofFn fun i => (pk i).scale (W (c i))) (List.ofFn m)
      (Jac.weightedSum (List.ofFn s) (List.ofFn fun i => W (c i))) false = some true}.ncard * N ≤
      Nat.card (Fin n → Fin N) := by
  obtain ⟨j, hj⟩ := hj
  have h := Nat.mul_le_mul_right N (batch_count hpk hm hs j hj W hW hd)
  rw [← pow_succ, Nat.sub_add_cancel (by have := j.2; omega)] at h
  rwa [Nat.card_fun, Nat.card_fin, Nat.card_fin]

/-- C78: the test of the signatures for membership cannot be left out: there is a point of the curve so that every valid
signature plus this point is rejected by `verify` but accepted by the test with every weight divisible by 13. -/
theorem C78_subgroup_needed : ∃ t : G2 (FpV adx), t.isOnCurve Fp2.B = true ∧
    ∀ (pk : G1 (FpV adx)) (m : List UInt8) (s : G2 (FpV adx)) (w : List UInt64), m.length < 2 ^ 31 → verify pk m s = some true →
      verify pk m (s.add t) = some false ∧ (w.length = 4 → 13 ∣ wordsVal w →
        aggregateVerify [pk.scale w] [m] (Jac.weightedSum [s.add t] [w]) false = some true) := by
  obtain ⟨t, ht⟩ := Jac.exists_rep (pt2 (FpV adx) s13x s13y (by decide +kernel))
  refine ⟨t, G2.onCurve_iff.2 ⟨_, ht⟩, fun pk m s w hm h => ⟨?_, fun hw hd => batch_small hm h ht (s13_smul _) w hw hd⟩⟩
  obtain ⟨-, hs⟩ := (some_true_iff (verify_choice pk s hm)).1 h
  obtain ⟨b, e, hb⟩ := verify_choice pk (s.add t) hm
  rw [e, Option.some_inj, Bool.eq_false_iff]
  intro h'
  have := (Jac.add_rep (goodCurve2 _) hs ht).unique (hb.1 h').2
  exact pt2_ne_zero _ (add_eq_left.1 this)

/-- Two valid signatures with the weights 13 and 7. -/
example : ∃ s t : G2 (FpV adx), aggregateVerify (List.ofFn fun i => (![Keys.publicKey [3, 0, 0, 0], Keys.publicKey [5, 0, 0, 0]] i :
      G1 (FpV adx)).scale (![[13, 0, 0, 0], [7, 0, 0, 0]] i)) (List.ofFn ![[97, 98, 99], [1]])
    (Jac.weightedSum (List.ofFn ![s, t]) (List.ofFn ![[13, 0, 0, 0], [7, 0, 0, 0]])) false = some true := by
  obtain ⟨s, hs⟩ := C45_sign_defined (adx := adx) [3, 0, 0, 0] [97, 98, 99] (by decide)
  obtain ⟨t, ht⟩ := C45_sign_defined (adx := adx) [5, 0, 0, 0] [1] (by decide)
  refine ⟨s, t, C78_complete _ _ _ _ (by decide) (by decide) fun i => ?_⟩
  fin_cases i
  · exact C45_sign _ _ _ hs
  · exact C45_sign _ _ _ ht

/-- Infinity in place of the signature of the key 3, with the weights 1, …, 4: the hypotheses of `C78_count` and `C78_weight`. -/
theorem batch_case : (∀ i : Fin 1, Member1 (![Keys.publicKey [3, 0, 0, 0]] i : G1 (FpV adx))) ∧
    (∀ i : Fin 1, Member2 (![Jac.zero] i : G2 (FpV adx))) ∧
    (∃ j : Fin 1, verify (![Keys.publicKey [3, 0, 0, 0]] j : G1 (FpV adx)) (![[97, 98, 99]] j) (![Jac.zero] j) ≠ some true) ∧
    ∀ k l : Fin 4, wordsVal (![[1, 0, 0, 0], [2, 0, 0, 0], [3, 0, 0, 0], [4, 0, 0, 0]] k) % q =
      wordsVal (![[1, 0, 0, 0], [2, 0, 0, 0], [3, 0, 0, 0], [4, 0, 0, 0]] l) % q → k = l := by
  obtain ⟨s, hs⟩ := C45_sign_defined (adx := adx) [3, 0, 0, 0] [97, 98, 99] (by decide)
  obtain ⟨e, he, h0⟩ := hash_abc_ne (FpV adx)
  have hz : s.isZero = false := by
    rw [Bool.eq_false_iff, Ne, sign_zero_iff he hs, h0]
    decide +kernel
  refine ⟨fun i => ?_, fun i => ?_, ⟨0, fun h => ?_⟩, by decide +kernel⟩
  · fin_cases i; exact publicKey_member _
  · fin_cases i; exact member2.2 ⟨0, Jac.zero_rep, nsmul_zero _⟩
  · have h1 := (some_true_iff (verify_choice _ _ (by decide))).1 (C45_sign _ _ _ hs)
    have h2 := (some_true_iff (verify_choice _ _ (by decide))).1 h
    rw [h1.2.isZero_iff.2 (Jac.zero_rep.unique h2.2).symm] at hz
    exact Bool.noConfusion hz

/-- At most one in four of these weights is accepted. -/
example : {c : Fin 1 → Fin 4 | aggregateVerify (List.ofFn fun i => (![Keys.publicKey [3, 0, 0, 0]] i : G1 (FpV adx)).scale
      (![[1, 0, 0, 0], [2, 0, 0, 0], [3, 0, 0, 0], [4, 0, 0, 0]] (c i))) (List.ofFn ![[97, 98, 99]])
    (Jac.weightedSum (List.ofFn ![Jac.zero]) (List.ofFn fun i => ![[1, 0, 0, 0], [2, 0, 0, 0], [3, 0, 0, 0], [4, 0, 0, 0]] (c i)))
    false = some true}.ncard ≤ 1 := by
  obtain ⟨h1, h2, h3, h4⟩ := batch_case (adx := adx)
  have := C78_count _ ![[97, 98, 99]] _ (by decide) h1 h2 h3 _ (by decide) h4
  rw [Nat.card_fun, Nat.card_fin, Nat.card_fin] at this
  exact Nat.le_of_mul_le_mul_right this (by decide)

/-- The weights 0 and `q` are accepted with infinity in place of the signature; they are equal modulo `q`, as they must be. -/
example : (∀ w ∈ [[0, 0, 0, 0], FpC.Q], aggregateVerify (List.ofFn fun i : Fin 1 => (![Keys.publicKey [3, 0, 0, 0]] i : G1 (FpV adx)).scale
      (![w] i)) (List.ofFn ![[97, 98, 99]]) (Jac.weightedSum (List.ofFn ![Jac.zero]) (List.ofFn ![w])) false = some true) ∧
    wordsVal [0, 0, 0, 0] % q = wordsVal FpC.Q % q := by
  have h : ∀ w ∈ [[0, 0, 0, 0], FpC.Q], aggregateVerify (List.ofFn fun i : Fin 1 => (![Keys.publicKey [3, 0, 0, 0]] i :
      G1 (FpV adx)).scale (![w] i)) (List.ofFn ![[97, 98, 99]]) (Jac.weightedSum (List.ofFn ![Jac.zero]) (List.ofFn ![w])) false =
      some true := by
    intro w hw
    have hq : ∃ k, wordsVal w = k * q := by
      rcases List.mem_cons.1 hw with rfl | hw
      · exact ⟨0, by decide +kernel⟩
      · rw [List.mem_singleton.1 hw]; exact ⟨1, by decide +kernel⟩
    obtain ⟨k, hk⟩ := hq
    obtain ⟨P, hP, oP⟩ := Pairing.valid1 (publicKey_member (K := FpV adx) [3, 0, 0, 0])
    have hz : ((Keys.publicKey [3, 0, 0, 0] : G1 (FpV adx)).scale w).isZero = true := by
      rw [(Jac.scale_rep (goodCurve1 _) hP w).isZero_iff, hk, mul_nsmul', oP, nsmul_zero]
    obtain ⟨b, hb, hb'⟩ := C47_aggregate_empty (Jac.weightedSum [(Jac.zero : G2 (FpV adx))] [w]) false
    refine (C47_false_aggregate _ _ (by decide) hz [] (by simp) _ _ (by simp)).trans (hb.trans ?_)
    have hl : ∀ s ∈ [w], s.length = 4 := by
      rcases List.mem_cons.1 hw with rfl | hw
      · decide
      · rw [List.mem_singleton.1 hw]; decide +kernel
    have := Jac.weightedSum_rep (goodCurve2 (FpV adx)) (points := [Jac.zero]) (Ps := [0]) (.cons Jac.zero_rep .nil) [w] hl
    rw [Option.some_inj, hb', this.isZero_iff]
    simp
  obtain ⟨h1, h2, h3, h4⟩ := batch_case (adx := adx)
  obtain ⟨j, hj⟩ := h3
  have hj' := Subsingleton.elim j 0
  subst hj'
  exact ⟨h, C78_weight _ _ _ ![[0, 0, 0, 0]] ![FpC.Q] (by decide) (by decide +kernel) (by decide) h1 h2 0 hj
    (fun i hi => absurd (Subsingleton.elim i 0) hi) (h _ (by simp)) (h _ (by simp))⟩

end Bls.Props
