import Verif.Proof.Cancel
import Verif.Proof.HashEmpty
import Verif.Props.Binding

/-!
# C83: keys that cancel

A group of keys, none of which is infinity and all of which come with an accepted proof of possession, may add up to infinity.
`pop_fast_aggregate_verify` then accepts infinity, and only infinity, for every message.
-/

namespace Bls.Props
open Bls Sig Rfc Pairing

attribute [local irreducible] p q hEff2

variable {adx : Bool}

/-- C83: for keys on the curve that add up to infinity the message does not matter. -/
theorem C83_zero (pks : List (G1 (FpV adx))) (h0 : pks ≠ []) (hc : ∀ pk ∈ pks, pk.isOnCurve FpC.B = true)
    (hz : (Keys.aggregate pks).isZero = true) (m : List UInt8) (hm : m.length < 2 ^ 31) (s : G2 (FpV adx)) :
    popFastAggregateVerify pks m s = some s.isZero := fast_zero h0 hc hz hm s

/-- C83: such keys are easy to make, and their proofs of possession are accepted: for every secret key there is a second one
(the opposite) such that both have accepted proofs and together accept infinity for every message. If the first secret key is
not 0 neither public key is infinity. -/
theorem C83_registered (sk : List UInt64) : ∃ sk' : List UInt64, sk'.length = 4 ∧ wordsVal sk' < q ∧
    (∃ π : G2 (FpV adx), popProve sk = some π ∧ popVerify (Keys.publicKey sk) π = some true) ∧
    (∃ π' : G2 (FpV adx), popProve sk' = some π' ∧ popVerify (Keys.publicKey sk') π' = some true) ∧
    (¬ q ∣ wordsVal sk → (Keys.publicKey sk : G1 (FpV adx)).isZero = false ∧ (Keys.publicKey sk' : G1 (FpV adx)).isZero = false) ∧
    ∀ (m : List UInt8) (s : G2 (FpV adx)), m.length < 2 ^ 31 →
      popFastAggregateVerify [Keys.publicKey sk, Keys.publicKey sk'] m s = some s.isZero := by
  have hq := q_prime.pos
  obtain ⟨sk', hl, hv⟩ := Keys.exists_words (k := (q - wordsVal sk % q) % q) (Nat.mod_lt _ hq)
  have hd : q ∣ wordsVal sk + wordsVal sk' := by
    rw [hv, Nat.dvd_iff_mod_eq_zero, Nat.add_mod, Nat.mod_mod, ← Nat.add_mod, ← Nat.mod_add_mod,
      Nat.add_sub_cancel' (Nat.mod_lt _ hq).le, Nat.mod_self]
  refine ⟨sk', hl, hv ▸ Nat.mod_lt _ hq, C45_pop sk, C45_pop sk', fun hn => ⟨?_, ?_⟩, fun m s hm =>
    C83_zero _ (by simp) ?_ (opposite hd) m hm s⟩
  · rw [Bool.eq_false_iff, Ne, (C42_publicKey adx sk).2.1]
    exact hn
  · rw [Bool.eq_false_iff, Ne, (C42_publicKey adx sk').2.1]
    exact fun h => hn ((Nat.dvd_add_left h).1 hd)
  · intro pk hpk
    simp only [List.mem_cons, List.not_mem_nil, or_false] at hpk
    rcases hpk with rfl | rfl
    · exact (publicKey_member _).1
    · exact (publicKey_member _).1

/-- C83: keys that cancel are invisible: adding them to a list of keys changes no answer, so the list of signers of an accepted
signature can be extended by keys whose owners signed nothing. -/
theorem C83_absorb (zs pks : List (G1 (FpV adx))) (h0 : pks ≠ []) (hz : ∀ pk ∈ zs, pk.isOnCurve FpC.B = true)
    (hc : ∀ pk ∈ pks, pk.isOnCurve FpC.B = true) (hs : (Keys.aggregate zs).isZero = true) (m : List UInt8)
    (s : G2 (FpV adx)) : popFastAggregateVerify (zs ++ pks) m s = popFastAggregateVerify pks m s :=
  fast_absorb h0 hz hc hs m s

/-- C83, the converse: if one point is accepted by the same keys for two messages with different hashes, the keys add up to
infinity and the point is infinity. So cancellation is the only way to lose the message. -/
theorem C83_only (pks : List (G1 (FpV adx))) (hc : ∀ pk ∈ pks, pk.isOnCurve FpC.B = true) (m m' : List UInt8)
    (s e e' : G2 (FpV adx)) (he : fromMessage m ciphersuiteId = some e) (he' : fromMessage m' ciphersuiteId = some e')
    (hne : e.equal e' = false) (h : popFastAggregateVerify pks m s = some true)
    (h' : popFastAggregateVerify pks m' s = some true) : (Keys.aggregate pks).isZero = true ∧ s.isZero = true := by
  have h0 : pks ≠ [] := by
    rintro rfl
    simp [popFastAggregateVerify] at h
  obtain ⟨Ps, hP⟩ := exists_reps hc
  have hr := Keys.aggregate_rep (goodCurve1 (FpV adx)) hP
  rw [fast_eq hP h0 (k := Keys.aggregate pks) hr] at h h'
  by_cases hz : (Keys.aggregate pks).isZero = true
  · exact ⟨hz, C47_partial _ _ _ hz (Or.inl h)⟩
  · obtain ⟨a, a', ha, ha', hq⟩ := C55_message _ _ _ _ (Bool.eq_false_iff.2 hz) h h'
    rw [he] at ha
    rw [he'] at ha'
    obtain rfl := Option.some.inj ha
    obtain rfl := Option.some.inj ha'
    rw [hne] at hq
    exact absurd hq (by simp)

/-- C83: `aggregate_verify` with two keys that cancel: infinity is accepted exactly if the two messages have the same hash
(or the secret keys are 0). With messages that differ, as the flag demands, cancellation is therefore of no use. -/
theorem C83_aggregate (sk sk' : List UInt64) (hd : q ∣ wordsVal sk + wordsVal sk') (m m' : List UInt8)
    (hm : m.length < 2 ^ 31) (hm' : m'.length < 2 ^ 31) (s : G2 (FpV adx)) (hs : s.isZero = true) (e e' : G2 (FpV adx))
    (he : fromMessage m ciphersuiteId = some e) (he' : fromMessage m' ciphersuiteId = some e') :
    ∃ b, aggregateVerify [Keys.publicKey sk, Keys.publicKey sk'] [m, m'] s false = some b ∧
      (b = true ↔ q ∣ wordsVal sk ∨ e.equal e' = true) := aggregate_opposite hd hm hm' s hs he he'

/-- The secret key 3 and its opposite: infinity is the signature of `abc` and of the empty message. -/
example : ∃ sk' : List UInt64, (Keys.publicKey [3, 0, 0, 0] : G1 (FpV adx)).isZero = false ∧
    (Keys.publicKey sk' : G1 (FpV adx)).isZero = false ∧
    popFastAggregateVerify [Keys.publicKey [3, 0, 0, 0], Keys.publicKey sk'] [97, 98, 99] (Jac.zero : G2 (FpV adx)) = some true ∧
    popFastAggregateVerify [Keys.publicKey [3, 0, 0, 0], Keys.publicKey sk'] [] (Jac.zero : G2 (FpV adx)) = some true := by
  obtain ⟨sk', -, -, -, -, h1, h2⟩ := C83_registered (adx := adx) [3, 0, 0, 0]
  have hz : (Jac.zero : G2 (FpV adx)).isZero = true := Jac.isZero_iff.2 LawfulOps.zero_eq
  refine ⟨sk', (h1 (by decide +kernel)).1, (h1 (by decide +kernel)).2, ?_, ?_⟩
  · rw [h2 _ _ (by decide), hz]
  · rw [h2 _ _ (by decide), hz]

/-- In `aggregate_verify` the keys 3 and its opposite with the messages `abc` and the empty one do not accept infinity. -/
example : ∃ sk' : List UInt64, aggregateVerify [Keys.publicKey [3, 0, 0, 0], Keys.publicKey sk'] [[97, 98, 99], []]
    (Jac.zero : G2 (FpV adx)) false = some false := by
  obtain ⟨e, e', he, he', hne⟩ := hash_abc_empty (FpV adx)
  obtain ⟨sk', -, hv⟩ := Keys.exists_words (k := q - 3) (by decide +kernel)
  have hz : (Jac.zero : G2 (FpV adx)).isZero = true := Jac.isZero_iff.2 LawfulOps.zero_eq
  obtain ⟨b, e1, hb⟩ := C83_aggregate [3, 0, 0, 0] sk' (by rw [hv]; decide +kernel) _ _ (by decide) (by decide) _ hz e e' he he'
  refine ⟨sk', ?_⟩
  rw [e1, Bool.eq_false_iff.2 (mt hb.1 ?_)]
  rintro (h | h)
  · exact absurd h (by decide +kernel)
  · rw [hne] at h
    exact absurd h (by simp)

/-- The hypotheses of `C83_only` for the messages `abc` and the empty one. -/
example : ∃ (pks : List (G1 (FpV adx))) (s e e' : G2 (FpV adx)), (∀ pk ∈ pks, pk.isOnCurve FpC.B = true) ∧
    fromMessage [97, 98, 99] ciphersuiteId = some e ∧ fromMessage [] ciphersuiteId = some e' ∧ e.equal e' = false ∧
    popFastAggregateVerify pks [97, 98, 99] s = some true ∧ popFastAggregateVerify pks [] s = some true := by
  obtain ⟨e, e', he, he', hne⟩ := hash_abc_empty (FpV adx)
  obtain ⟨sk', -, -, -, -, -, h2⟩ := C83_registered (adx := adx) [3, 0, 0, 0]
  have hz : (Jac.zero : G2 (FpV adx)).isZero = true := Jac.isZero_iff.2 LawfulOps.zero_eq
  refine ⟨_, Jac.zero, e, e', ?_, he, he', hne, (h2 _ _ (by decide)).trans (by rw [hz]), (h2 _ _ (by decide)).trans (by rw [hz])⟩
  intro pk hpk
  simp only [List.mem_cons, List.not_mem_nil, or_false] at hpk
  rcases hpk with rfl | rfl
  · exact (publicKey_member _).1
  · exact (publicKey_member _).1

/-- Three keys that cancel: 1, 2 and the opposite of 3. -/
example (m : List UInt8) (hm : m.length < 2 ^ 31) (s : G2 (FpV adx)) :
    popFastAggregateVerify [Keys.publicKey [1, 0, 0, 0], Keys.publicKey [2, 0, 0, 0], (Keys.publicKey [3, 0, 0, 0]).negate] m s =
      some s.isZero := by
  have r1 := Keys.publicKey_rep (K := FpV adx) [1, 0, 0, 0]
  have r2 := Keys.publicKey_rep (K := FpV adx) [2, 0, 0, 0]
  have r3 := Jac.neg_rep (Keys.publicKey_rep (K := FpV adx) [3, 0, 0, 0])
  refine C83_zero _ (by simp) ?_ ?_ m hm s
  · intro pk hpk
    simp only [List.mem_cons, List.not_mem_nil, or_false] at hpk
    rcases hpk with rfl | rfl | rfl
    · exact G1.onCurve_iff.2 ⟨_, r1⟩
    · exact G1.onCurve_iff.2 ⟨_, r2⟩
    · exact G1.onCurve_iff.2 ⟨_, r3⟩
  · refine (Keys.aggregate_rep (goodCurve1 (FpV adx)) (.cons r1 (.cons r2 (.cons r3 .nil)))).isZero_iff.2 ?_
    rw [List.sum_cons, List.sum_cons, List.sum_cons, List.sum_nil, add_zero, ← add_assoc, ← add_nsmul, ← sub_eq_add_neg,
      sub_eq_zero]
    rfl

/-- A bystander: the keys 3 and its opposite are added to the signer 5 of `abc`. -/
example (s : G2 (FpV adx)) (h : sign [5, 0, 0, 0] [97, 98, 99] = some s) :
    popFastAggregateVerify [Keys.publicKey [3, 0, 0, 0], (Keys.publicKey [3, 0, 0, 0]).negate, Keys.publicKey [5, 0, 0, 0]]
      [97, 98, 99] s = some true := by
  have r3 := Keys.publicKey_rep (K := FpV adx) [3, 0, 0, 0]
  have n3 := Jac.neg_rep r3
  have hz : (Keys.aggregate [Keys.publicKey [3, 0, 0, 0], (Keys.publicKey [3, 0, 0, 0]).negate] : G1 (FpV adx)).isZero = true := by
    refine (Keys.aggregate_rep (goodCurve1 (FpV adx)) (.cons r3 (.cons n3 .nil))).isZero_iff.2 ?_
    rw [List.sum_cons, List.sum_cons, List.sum_nil, add_zero, add_neg_cancel]
  rw [show [Keys.publicKey [3, 0, 0, 0], (Keys.publicKey [3, 0, 0, 0]).negate, Keys.publicKey [5, 0, 0, 0]] =
    [Keys.publicKey [3, 0, 0, 0], (Keys.publicKey [3, 0, 0, 0] : G1 (FpV adx)).negate] ++ [Keys.publicKey [5, 0, 0, 0]] from rfl,
    C83_absorb _ _ (by simp) ?_ ?_ hz, C56_fast_single _ _ _ (by decide) (publicKey_member _)]
  · exact C45_sign _ _ _ h
  · intro pk hpk
    simp only [List.mem_cons, List.not_mem_nil, or_false] at hpk
    rcases hpk with rfl | rfl
    · exact G1.onCurve_iff.2 ⟨_, r3⟩
    · exact G1.onCurve_iff.2 ⟨_, n3⟩
  · intro pk hpk
    simp only [List.mem_cons, List.not_mem_nil, or_false] at hpk
    subst hpk
    exact (publicKey_member _).1

end Bls.Props
