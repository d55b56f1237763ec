import Verif.Proof.Binding
import Verif.Proof.HashValues
import Verif.Props.Tags
import Verif.Props.Keys

/-!
# C55-C57: what a signature is bound to, and how the verification functions fit together
-/

namespace Bls.Props
open Bls Sig Rfc Pairing

attribute [local irreducible] p q hEff2

variable {adx : Bool}

/-! ## C55 -/

/-- C55: one point is accepted for two messages under the same key (not infinity) only if the messages have the same hash. -/
theorem C55_message (pk : G1 (FpV adx)) (m m' : List UInt8) (s : G2 (FpV adx)) (h0 : pk.isZero = false)
    (h : verify pk m s = some true) (h' : verify pk m' s = some true) :
    ∃ e e' : G2 (FpV adx), fromMessage m ciphersuiteId = some e ∧ fromMessage m' ciphersuiteId = some e' ∧
      e.equal e' = true := bind_message h h' h0

/-- C55: one point is accepted for the same message under two keys only if the keys are the same point, unless the message
hashes to infinity. -/
theorem C55_key (pk pk' : G1 (FpV adx)) (m : List UInt8) (s e : G2 (FpV adx)) (he : fromMessage m ciphersuiteId = some e)
    (h0 : e.isZero = false) (h : verify pk m s = some true) (h' : verify pk' m s = some true) : pk.equal pk' = true :=
  bind_key h h' he h0

/-- C55: the opposite of an accepted signature is rejected, so the sign bit of an encoded signature cannot be flipped. -/
theorem C55_negate (pk : G1 (FpV adx)) (m : List UInt8) (s : G2 (FpV adx)) (h0 : s.isZero = false)
    (h : verify pk m s = some true) : verify pk m s.negate = some false := negate_rejected h h0

/-- C55: what can be changed is the sign of key and signature together. -/
theorem C55_negate_both (pk : G1 (FpV adx)) (m : List UInt8) (s : G2 (FpV adx)) (hpk : pk.isOnCurve FpC.B = true)
    (hs : s.isOnCurve Fp2.B = true) : verify pk.negate m s.negate = verify pk m s := negate_both m hpk hs

/-- C55: a signature is infinity only for the secret key 0 or a message that hashes to infinity. -/
theorem C55_infinity (sk : List UInt64) (m : List UInt8) (e s : G2 (FpV adx)) (he : fromMessage m ciphersuiteId = some e)
    (h : sign sk m = some s) : s.isZero = true ↔ q ∣ wordsVal sk ∨ e.isZero = true := sign_zero_iff he h

/-- The hypotheses hold for the key 3 and the message `abc`, whose hash and signature are not infinity. -/
theorem bind_case : ∃ e s : G2 (FpV adx), fromMessage [97, 98, 99] ciphersuiteId = some e ∧ e.isZero = false ∧
    sign [3, 0, 0, 0] [97, 98, 99] = some s ∧ s.isZero = false ∧
    verify (Keys.publicKey [3, 0, 0, 0]) [97, 98, 99] s = some true ∧
    verify (Keys.publicKey [3, 0, 0, 0]) [97, 98, 99] s.negate = some false ∧
    (Keys.publicKey [3, 0, 0, 0] : G1 (FpV adx)).isZero = false := by
  obtain ⟨e, he, h0⟩ := hash_abc_ne (FpV adx)
  have hs : sign [3, 0, 0, 0] [97, 98, 99] = some (e.scale [3, 0, 0, 0]) := by rw [sign, he, Option.map_some]
  have hq : ¬ q ∣ wordsVal [3, 0, 0, 0] := by decide +kernel
  have hz : (e.scale [3, 0, 0, 0]).isZero = false := by
    rw [Bool.eq_false_iff, Ne, C55_infinity [3, 0, 0, 0] [97, 98, 99] e _ he hs, h0]
    rintro (h | h)
    · exact hq h
    · exact Bool.noConfusion h
  have hv := C45_sign _ _ _ hs
  refine ⟨e, _, he, h0, hs, hz, hv, C55_negate _ _ _ hz hv, ?_⟩
  rw [Bool.eq_false_iff, Ne, (C42_publicKey adx [3, 0, 0, 0]).2.1]
  exact hq

/-- A point accepted for `abc` under the key 3 is not accepted under the key 5. -/
example : ∃ s : G2 (FpV adx), verify (Keys.publicKey [3, 0, 0, 0]) [97, 98, 99] s = some true ∧
    verify (Keys.publicKey [5, 0, 0, 0]) [97, 98, 99] s ≠ some true := by
  obtain ⟨e, s, he, h0, -, -, h, -⟩ := bind_case (adx := adx)
  refine ⟨s, h, fun h' => ?_⟩
  have := C55_key _ _ _ _ e he h0 h h'
  rw [C42_injective] at this
  revert this
  decide +kernel

/-- The signature of `abc` under the key 3 and the key with the opposite signs. -/
example : ∃ s : G2 (FpV adx), s.isZero = false ∧
    verify (Keys.publicKey [3, 0, 0, 0] : G1 (FpV adx)).negate [97, 98, 99] s.negate = some true := by
  obtain ⟨e, s, -, -, -, hz, h, -⟩ := bind_case (adx := adx)
  obtain ⟨h1, h2, -⟩ := C46_valid _ _ _ h
  exact ⟨s, hz, (C55_negate_both _ _ _ h1.1 h2).trans h⟩

/-- One signature for two messages exists: the messages of C44_collision, whose hashes are equal. -/
example (m : List UInt8) (hm : m.length = 2 ^ 32) : ∃ s : G2 (FpV adx),
    verify (Keys.publicKey [3, 0, 0, 0]) [] s = some true ∧ verify (Keys.publicKey [3, 0, 0, 0]) m s = some true ∧
    ∃ e e' : G2 (FpV adx), fromMessage [] ciphersuiteId = some e ∧ fromMessage m ciphersuiteId = some e' ∧ e.equal e' = true := by
  obtain ⟨s, hs⟩ := C45_sign_defined (adx := adx) [3, 0, 0, 0] [] (by decide)
  have h' : sign [3, 0, 0, 0] m = some s := by
    rw [sign, C44_collision m _ hm]
    exact hs
  obtain ⟨e, s', -, -, -, -, -, -, h0⟩ := bind_case (adx := adx)
  exact ⟨s, C45_sign _ _ _ hs, C45_sign _ _ _ h', C55_message _ _ _ s h0 (C45_sign _ _ _ hs) (C45_sign _ _ _ h')⟩

/-! ## C56 -/

/-- C56: `aggregate_verify` of one pair is `verify`. -/
theorem C56_single (pk : G1 (FpV adx)) (m : List UInt8) (s : G2 (FpV adx)) (dup : Bool) (hm : m.length < 2 ^ 31) :
    aggregateVerify [pk] [m] s dup = verify pk m s := aggregate_single pk s dup hm

/-- C56: `aggregate_verify` with one common message is `pop_fast_aggregate_verify`, for valid keys. -/
theorem C56_common (pks : List (G1 (FpV adx))) (m : List UInt8) (s : G2 (FpV adx)) (hm : m.length < 2 ^ 31) (h0 : pks ≠ [])
    (h : ∀ pk ∈ pks, Member1 pk) :
    aggregateVerify pks (List.replicate pks.length m) s false = popFastAggregateVerify pks m s := aggregate_common s hm h0 h

/-- C56: `pop_fast_aggregate_verify` of one valid key is `verify`. -/
theorem C56_fast_single (pk : G1 (FpV adx)) (m : List UInt8) (s : G2 (FpV adx)) (hm : m.length < 2 ^ 31) (h : Member1 pk) :
    popFastAggregateVerify [pk] m s = verify pk m s := by
  rw [← C56_common [pk] m s hm (by simp) (by simpa using h)]
  exact C56_single pk m s false hm

/-- C56: if `s` is accepted for the pairs `l`, then `s + s'` is accepted for `l ++ l'` exactly if `s'` is for `l'`. -/
theorem C56_concat (l l' : List (G1 (FpV adx) × List UInt8)) (s s' : G2 (FpV adx)) (hl : ∀ x ∈ l, x.2.length < 2 ^ 31)
    (hl' : ∀ x ∈ l', x.2.length < 2 ^ 31) (hs' : s'.isOnCurve Fp2.B = true)
    (h : aggregateVerify (l.map Prod.fst) (l.map Prod.snd) s false = some true) :
    aggregateVerify ((l ++ l').map Prod.fst) ((l ++ l').map Prod.snd) (s.add s') false =
      aggregateVerify (l'.map Prod.fst) (l'.map Prod.snd) s' false := aggregate_append l l' s s' hl hl' hs' h

/-- C56: signatures accepted one by one are accepted in aggregate (honest or not; different messages if `dup`). -/
theorem C56_all (l : List ((G1 (FpV adx) × List UInt8) × G2 (FpV adx))) (dup : Bool) (hl : ∀ x ∈ l, x.1.2.length < 2 ^ 31)
    (h : ∀ x ∈ l, verify x.1.1 x.1.2 x.2 = some true) (hd : dup = true → (l.map fun x => x.1.2).Nodup) :
    aggregateVerify (l.map fun x => x.1.1) (l.map fun x => x.1.2) (Keys.aggregate (l.map Prod.snd)) dup = some true :=
  aggregate_all l dup hl h hd

/-- C56, the converse is false: shifting two accepted signatures by `t` and `-t` keeps the aggregate accepted, while
neither of the two is accepted any more. So an accepted aggregate says nothing about the single signatures. -/
theorem C56_converse_false (pk pk' : G1 (FpV adx)) (m m' : List UInt8) (s s' t : G2 (FpV adx)) (dup : Bool)
    (hm : m.length < 2 ^ 31) (hm' : m'.length < 2 ^ 31) (h : verify pk m s = some true) (h' : verify pk' m' s' = some true)
    (hd : dup = true → m ≠ m') (ht : t.isOnCurve Fp2.B = true) :
    aggregateVerify [pk, pk'] [m, m'] (Keys.aggregate [s.add t, s'.subtract t]) dup = some true ∧
      (t.isZero = false → verify pk m (s.add t) = some false ∧ verify pk' m' (s'.subtract t) = some false) :=
  aggregate_shift dup hm hm' h h' hd ht

/-- C56: signing is additive in the key: the signature under `a + b mod q` is the sum of the signatures. -/
theorem C56_sign_add (a b c : List UInt64) (hc : wordsVal c % q = (wordsVal a + wordsVal b) % q) (m : List UInt8)
    (s s' s'' : G2 (FpV adx)) (h : sign a m = some s) (h' : sign b m = some s') (h'' : sign c m = some s'') :
    (s.add s').equal s'' = true := sign_add hc h h' h''

/-- Two signers and two messages: the parts of the aggregate can be spoilt without spoiling the aggregate. -/
example : ∃ s s' : G2 (FpV adx),
    aggregateVerify [Keys.publicKey [3, 0, 0, 0], Keys.publicKey [5, 0, 0, 0]] [[97], [98]] (Keys.aggregate [s, s']) true = some true ∧
    verify (Keys.publicKey [3, 0, 0, 0]) [97] s = some false ∧ verify (Keys.publicKey [5, 0, 0, 0]) [98] s' = some false := by
  obtain ⟨s, h⟩ := C45_sign_defined (adx := adx) [3, 0, 0, 0] [97] (by decide)
  obtain ⟨s', h'⟩ := C45_sign_defined (adx := adx) [5, 0, 0, 0] [98] (by decide)
  obtain ⟨t, ht, h0⟩ := hash_abc_ne (FpV adx)
  obtain ⟨T, rT, _⟩ := fromMessage_some id_length.1 ht
  have hc := C56_converse_false _ _ [97] [98] s s' t true (by decide) (by decide) (C45_sign _ _ _ h) (C45_sign _ _ _ h')
    (fun _ => by decide) (G2.onCurve_iff.2 ⟨T, rT⟩)
  exact ⟨_, _, hc.1, hc.2 h0⟩

/-- The signature of one message, alone, after another one, and both together. -/
example : ∃ s s' : G2 (FpV adx), aggregateVerify [Keys.publicKey [3, 0, 0, 0]] [[97]] s true = some true ∧
    aggregateVerify [Keys.publicKey [3, 0, 0, 0], Keys.publicKey [5, 0, 0, 0]] [[97], [98]] (s.add s') false = some true ∧
    aggregateVerify [Keys.publicKey [3, 0, 0, 0], Keys.publicKey [5, 0, 0, 0]] [[97], [98]] (Keys.aggregate [s, s']) true =
      some true := by
  obtain ⟨s, h⟩ := C45_sign_defined (adx := adx) [3, 0, 0, 0] [97] (by decide)
  obtain ⟨s', h'⟩ := C45_sign_defined (adx := adx) [5, 0, 0, 0] [98] (by decide)
  have e := C56_single (Keys.publicKey [3, 0, 0, 0]) [97] s true (by decide)
  have e1 := C56_single (Keys.publicKey [3, 0, 0, 0]) [97] s false (by decide)
  have e2 := C56_single (Keys.publicKey [5, 0, 0, 0]) [98] s' false (by decide)
  have h1 := C45_sign _ _ _ h
  have h2 := C45_sign _ _ _ h'
  refine ⟨s, s', e.trans h1, ?_, ?_⟩
  · exact (C56_concat [(Keys.publicKey [3, 0, 0, 0], [97])] [(Keys.publicKey [5, 0, 0, 0], [98])] s s' (by simp) (by simp)
      (C46_valid _ _ _ h2).2.1 (e1.trans h1)).trans (e2.trans h2)
  · refine C56_all [((Keys.publicKey [3, 0, 0, 0], [97]), s), ((Keys.publicKey [5, 0, 0, 0], [98]), s')] true (by simp) ?_ (by simp)
    intro x hx
    rcases List.mem_cons.1 hx with rfl | hx
    · exact h1
    · rw [List.mem_singleton.1 hx]; exact h2

/-- The keys 3, 5 and 8. -/
example (s s' s'' : G2 (FpV adx)) (h : sign [3, 0, 0, 0] [97] = some s) (h' : sign [5, 0, 0, 0] [97] = some s')
    (h'' : sign [8, 0, 0, 0] [97] = some s'') : (s.add s').equal s'' = true :=
  C56_sign_add [3, 0, 0, 0] [5, 0, 0, 0] [8, 0, 0, 0] (by decide +kernel) _ s s' s'' h h' h''

/-- A key meeting the hypothesis of C56_common, C56_fast_single and C57. -/
example : Member1 (Keys.publicKey [3, 0, 0, 0] : G1 (FpV adx)) := by
  obtain ⟨s, h⟩ := C45_sign_defined (adx := adx) [3, 0, 0, 0] [97] (by decide)
  exact (C46_valid _ _ _ (C45_sign _ _ _ h)).1

/-! ## C57 -/

/-- C57: for every valid key `pk` and every scalar `x` the key `x G - pk` is valid, and the signature under `x` alone is
accepted by `pop_fast_aggregate_verify` for both keys, on every message. -/
theorem C57_rogue_key (pk : G1 (FpV adx)) (hpk : Member1 pk) (x : List UInt64) (m : List UInt8) (s : G2 (FpV adx))
    (hs : sign x m = some s) :
    Member1 ((Keys.publicKey x : G1 (FpV adx)).subtract pk) ∧
      popFastAggregateVerify [pk, (Keys.publicKey x : G1 (FpV adx)).subtract pk] m s = some true := rogue hpk x hs

/-- An attacker who knows 5 signs for the victim with the key 3. -/
example : ∃ s : G2 (FpV adx), sign [5, 0, 0, 0] [97] = some s ∧ popFastAggregateVerify [Keys.publicKey [3, 0, 0, 0],
    (Keys.publicKey [5, 0, 0, 0] : G1 (FpV adx)).subtract (Keys.publicKey [3, 0, 0, 0])] [97] s = some true := by
  obtain ⟨s, h⟩ := C45_sign_defined (adx := adx) [3, 0, 0, 0] [97] (by decide)
  obtain ⟨s', h'⟩ := C45_sign_defined (adx := adx) [5, 0, 0, 0] [97] (by decide)
  exact ⟨s', h', (C57_rogue_key _ (C46_valid _ _ _ (C45_sign _ _ _ h)).1 _ _ s' h').2⟩

end Bls.Props
