import Verif.Proof.Binding

/-! Keys that add up to infinity. -/

namespace Bls.Sig
open Bls Rfc Pairing

attribute [local irreducible] p q hEff2 eps pairVal

variable {K : Type} [Field K] [FpOps K] [LawfulFp K] [DecidableEq K]

theorem exists_reps : ∀ {pks : List (G1 K)}, (∀ pk ∈ pks, pk.isOnCurve FpC.B = true) →
    ∃ Ps : List (E1 K), List.Forall₂ Jac.Rep pks Ps
  | [], _ => ⟨[], .nil⟩
  | pk :: pks, h => by
    obtain ⟨P, hP⟩ := G1.onCurve_iff.1 (h pk (List.mem_cons_self ..))
    obtain ⟨Ps, hPs⟩ := exists_reps (pks := pks) fun x hx => h x (List.mem_cons_of_mem _ hx)
    exact ⟨P :: Ps, .cons hP hPs⟩

/-- `verify` with infinity as the key. -/
theorem verify_infinity {pk : G1 K} (h : pk.Rep (0 : E1 K)) {m : List UInt8} (hm : m.length < 2 ^ 31) (s : G2 K) :
    verify pk m s = some s.isZero := by
  obtain ⟨b, e, hb⟩ := verify_choice pk s hm
  have h0 : pk.Rep (0 • gen1 K) := by rw [zero_nsmul]; exact h
  rw [contrib_eq hm h0, zero_nsmul] at hb
  have hv : pk.isOnCurve FpC.B = true ∧ pk.inCorrectSubgroup = true := member1.2 ⟨0, q_prime.pos, h0⟩
  rw [e]
  congr 1
  rw [Bool.eq_iff_iff, hb]
  constructor
  · rintro ⟨-, hs⟩; exact hs.isZero_iff.2 rfl
  · intro hs
    refine ⟨hv, ?_⟩
    have hz := Jac.isZero_iff.1 hs
    exact hz

/-- Keys that add up to infinity. -/
theorem fast_zero {pks : List (G1 K)} (h0 : pks ≠ []) (hc : ∀ pk ∈ pks, pk.isOnCurve FpC.B = true)
    (hz : (Keys.aggregate pks).isZero = true) {m : List UInt8} (hm : m.length < 2 ^ 31) (s : G2 K) :
    popFastAggregateVerify pks m s = some s.isZero := by
  obtain ⟨Ps, hP⟩ := exists_reps hc
  have hr := Keys.aggregate_rep (goodCurve1 K) hP
  have hsum := hr.isZero_iff.1 hz
  rw [fast_eq hP h0 (k := Keys.aggregate pks) hr]
  rw [hsum] at hr
  exact verify_infinity hr hm s

/-- Keys that add up to infinity make no difference when they are added to others. -/
theorem fast_absorb {zs pks : List (G1 K)} (h0 : pks ≠ []) (hz : ∀ pk ∈ zs, pk.isOnCurve FpC.B = true)
    (hc : ∀ pk ∈ pks, pk.isOnCurve FpC.B = true) (hs : (Keys.aggregate zs).isZero = true) (m : List UInt8) (s : G2 K) :
    popFastAggregateVerify (zs ++ pks) m s = popFastAggregateVerify pks m s := by
  obtain ⟨Zs, hZ⟩ := exists_reps hz
  obtain ⟨Ps, hP⟩ := exists_reps hc
  have hzero := (Keys.aggregate_rep (goodCurve1 K) hZ).isZero_iff.1 hs
  have hr := Keys.aggregate_rep (goodCurve1 K) hP
  rw [fast_eq hP h0 (k := Keys.aggregate pks) hr]
  refine fast_eq (List.rel_append hZ hP) (by simp [h0]) (k := Keys.aggregate pks) ?_ m s
  rw [List.sum_append, hzero, zero_add]
  exact hr

/-- The secret keys `sk` and `sk'` with sum 0. -/
theorem opposite {sk sk' : List UInt64} (h : q ∣ wordsVal sk + wordsVal sk') :
    (Keys.aggregate [Keys.publicKey sk, Keys.publicKey sk'] : G1 K).isZero = true := by
  have hr := Keys.aggregate_rep (goodCurve1 K) (.cons (Keys.publicKey_rep (K := K) sk) (.cons (Keys.publicKey_rep sk') .nil))
  refine hr.isZero_iff.2 ?_
  rw [List.sum_cons, List.sum_cons, List.sum_nil, add_zero, ← add_nsmul]
  exact (Keys.smul_gen1_eq_zero_iff (K := K) _).2 h

/-- `aggregate_verify` with one message for both. -/
theorem aggregate_opposite {sk sk' : List UInt64} (h : q ∣ wordsVal sk + wordsVal sk') {m m' : List UInt8}
    (hm : m.length < 2 ^ 31) (hm' : m'.length < 2 ^ 31) (s : G2 K) (hs : s.isZero = true) {e e' : G2 K}
    (he : fromMessage m ciphersuiteId = some e) (he' : fromMessage m' ciphersuiteId = some e') :
    ∃ b, aggregateVerify [Keys.publicKey sk, Keys.publicKey sk'] [m, m'] s false = some b ∧
      (b = true ↔ q ∣ wordsVal sk ∨ e.equal e' = true) := by
  obtain ⟨b, eb, hb⟩ := aggregateVerify_choice [((Keys.publicKey sk : G1 K), m), ((Keys.publicKey sk' : G1 K), m')] s false (by
    intro y hy
    simp only [List.mem_cons, List.not_mem_nil, or_false] at hy
    rcases hy with rfl | rfl
    · exact hm
    · exact hm')
  refine ⟨b, eb, hb.trans ?_⟩
  obtain ⟨P, r, o⟩ := fromMessage_some id_length.1 he
  obtain ⟨P', r', o'⟩ := fromMessage_some id_length.1 he'
  obtain ⟨hp, _⟩ := hpt_spec (K := K) hm
  obtain ⟨hp', _⟩ := hpt_spec (K := K) hm'
  have e1 : (hpt m : E2 K) = P := by
    have := hm_eq (K := K) hm
    rw [he] at this
    rw [← Option.some.inj this] at hp
    exact hp.unique r
  have e2 : (hpt m' : E2 K) = P' := by
    have := hm_eq (K := K) hm'
    rw [he'] at this
    rw [← Option.some.inj this] at hp'
    exact hp'.unique r'
  have hsm : (List.map contrib [((Keys.publicKey sk : G1 K), m), ((Keys.publicKey sk' : G1 K), m')]).sum =
      wordsVal sk • P + wordsVal sk' • P' := by
    rw [List.map_cons, List.map_cons, List.map_nil, List.sum_cons, List.sum_cons, List.sum_nil, add_zero,
      contrib_eq hm (Keys.publicKey_rep sk), contrib_eq hm' (Keys.publicKey_rep sk'), e1, e2]
  rw [hsm]
  have hneg : wordsVal sk' • P' = -(wordsVal sk • P') := by
    obtain ⟨t, ht⟩ := h
    rw [eq_neg_iff_add_eq_zero, ← add_nsmul, add_comm, ht]
    rw [mul_comm q t, mul_nsmul', o', nsmul_zero]
  rw [hneg, ← sub_eq_add_neg]
  have hmem : ∀ y ∈ [((Keys.publicKey sk : G1 K), m), ((Keys.publicKey sk' : G1 K), m')],
      y.1.isOnCurve FpC.B = true ∧ y.1.inCorrectSubgroup = true := by
    intro y hy
    simp only [List.mem_cons, List.not_mem_nil, or_false] at hy
    rcases hy with rfl | rfl
    · exact publicKey_member _
    · exact publicKey_member _
  have hz : s.Rep (0 : E2 K) := Jac.isZero_iff.1 hs
  rw [Jac.equal_iff r r']
  constructor
  · rintro ⟨-, -, hsum⟩
    have h3 := sub_eq_zero.1 (hz.unique hsum).symm
    by_cases hq : q ∣ wordsVal sk
    · exact Or.inl hq
    · exact Or.inr (smul_cancel o o' hq h3)
  · intro hor
    refine ⟨fun h' => absurd h' (by simp), hmem, ?_⟩
    have h4 : wordsVal sk • P = wordsVal sk • P' := by
      rcases hor with ⟨t, ht⟩ | h4
      · rw [ht, mul_comm q t, mul_nsmul', mul_nsmul', o, o']
      · rw [h4]
    rw [h4, sub_self]
    exact hz

end Bls.Sig
