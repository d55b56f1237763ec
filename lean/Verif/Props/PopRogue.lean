import Verif.Proof.PopRogue
import Verif.Proof.HashValues
import Verif.Props.Binding

/-!
# C81: what a proof of possession says about a key made from the key of somebody else

C57 shows that a key `u G - pk` lets its owner sign for the victim `pk`. The proof of possession that `pop_verify` asks for
prevents this as far as anything can: from an accepted proof for such a key, two calls of `scale` and one of `subtract`
compute the value of the victim's secret key at a hash the victim was never asked to sign, that is, a forgery.
-/

namespace Bls.Props
open Bls Sig Rfc Pairing

attribute [local irreducible] p q hEff2

variable {adx : Bool}

/-- C81: a proof accepted for `u G - pk` gives `sk` times the hash of that key, for the secret key `sk` of the victim. -/
theorem C81_rogue (pk : G1 (FpV adx)) (u sk : List UInt64) (e s : G2 (FpV adx)) (hsk : pk.isOnCurve FpC.B = true)
    (hpk : pk.equal (Keys.publicKey sk) = true)
    (he : fromMessage (keyBytes ((Keys.publicKey u : G1 (FpV adx)).subtract pk)) popCiphersuiteId = some e)
    (h : popVerify ((Keys.publicKey u : G1 (FpV adx)).subtract pk) s = some true) :
    ((e.scale u).subtract s).equal (e.scale sk) = true := by
  obtain ⟨A, hA⟩ := G1.onCurve_iff.1 hsk
  rw [Jac.equal_iff hA (Keys.publicKey_rep sk)] at hpk
  subst hpk
  obtain ⟨P, r, -, h1⟩ := pop_rogue hA he h
  exact (Jac.equal_iff h1 (Jac.scale_rep (goodCurve2 _) r sk)).2 rfl

/-- C81: the same for a key `u G + a pk` with any weight `a` that has an inverse `b` modulo the group order. -/
theorem C81_extract (pk pk' : G1 (FpV adx)) (u a b sk : List UInt64) (e s : G2 (FpV adx))
    (hb : wordsVal a * wordsVal b % q = 1) (hsk : pk.isOnCurve FpC.B = true) (hpk : pk.equal (Keys.publicKey sk) = true)
    (hrel : pk'.equal ((Keys.publicKey u : G1 (FpV adx)).add (pk.scale a)) = true)
    (he : fromMessage (keyBytes pk') popCiphersuiteId = some e) (h : popVerify pk' s = some true) :
    ((s.subtract (e.scale u)).scale b).equal (e.scale sk) = true := by
  obtain ⟨A, hA⟩ := G1.onCurve_iff.1 hsk
  rw [Jac.equal_iff hA (Keys.publicKey_rep sk)] at hpk
  subst hpk
  obtain ⟨P, r, -, h1⟩ := pop_extract_inv hb hA hrel he h
  exact (Jac.equal_iff h1 (Jac.scale_rep (goodCurve2 _) r sk)).2 rfl

/-- C81: the point computed passes the pairing test of the verification functions with the key of the victim and the hash
of the rogue key. No secret key is mentioned: the victim's need not be known. -/
theorem C81_forgery (pk pk' : G1 (FpV adx)) (u a b : List UInt64) (e s : G2 (FpV adx))
    (hb : wordsVal a * wordsVal b % q = 1) (hpk : Member1 pk)
    (hrel : pk'.equal ((Keys.publicKey u : G1 (FpV adx)).add (pk.scale a)) = true)
    (he : fromMessage (keyBytes pk') popCiphersuiteId = some e) (h : popVerify pk' s = some true) :
    isOneProduct (Pairing.addPair (Pairing.addPair [] (G1.one : G1 (FpV adx)).negate
      ((s.subtract (e.scale u)).scale b)) pk e) = some true := by
  obtain ⟨n, hq, hn⟩ := member1.1 hpk
  obtain ⟨sk, -, rfl⟩ := Keys.exists_words hq
  obtain ⟨P, r, o, h1⟩ := pop_extract_inv hb hn hrel he h
  exact core_pairs r o hn h1

/-- C81, the converse: with the victim's value at that hash the proof for the rogue key can be made. So making such a proof
and making such a forgery are the same problem. -/
theorem C81_converse (pk : G1 (FpV adx)) (u a sk : List UInt64) (e : G2 (FpV adx)) (hsk : pk.isOnCurve FpC.B = true)
    (hpk : pk.equal (Keys.publicKey sk) = true)
    (he : fromMessage (keyBytes ((Keys.publicKey u : G1 (FpV adx)).add (pk.scale a))) popCiphersuiteId = some e) :
    popVerify ((Keys.publicKey u : G1 (FpV adx)).add (pk.scale a)) ((e.scale u).add ((e.scale sk).scale a)) = some true := by
  obtain ⟨A, hA⟩ := G1.onCurve_iff.1 hsk
  rw [Jac.equal_iff hA (Keys.publicKey_rep sk)] at hpk
  subst hpk
  exact pop_from_victim hA rfl he

/-- The victim has the key 3, the rogue key is `5 G + 2 pk`. -/
theorem rogue_case : ∃ e s : G2 (FpV adx), ∃ pk' : G1 (FpV adx),
    pk'.equal ((Keys.publicKey [5, 0, 0, 0] : G1 (FpV adx)).add ((Keys.publicKey [3, 0, 0, 0]).scale [2, 0, 0, 0])) = true ∧
    fromMessage (keyBytes pk') popCiphersuiteId = some e ∧ popVerify pk' s = some true ∧
    (Keys.publicKey [3, 0, 0, 0] : G1 (FpV adx)).isOnCurve FpC.B = true ∧
    (Keys.publicKey [3, 0, 0, 0] : G1 (FpV adx)).equal (Keys.publicKey [3, 0, 0, 0]) = true := by
  obtain ⟨e, he, -⟩ := fromMessage_rep (K := FpV adx) sha_spec
    (keyBytes ((Keys.publicKey [5, 0, 0, 0] : G1 (FpV adx)).add ((Keys.publicKey [3, 0, 0, 0]).scale [2, 0, 0, 0]))) _
    (by rw [keyBytes_length]; decide) id_length.2
  have hr := Keys.publicKey_rep (K := FpV adx) [3, 0, 0, 0]
  have hc : (Keys.publicKey [3, 0, 0, 0] : G1 (FpV adx)).isOnCurve FpC.B = true := G1.onCurve_iff.2 ⟨_, hr⟩
  have hk := Jac.add_rep (goodCurve1 _) (Keys.publicKey_rep (K := FpV adx) [5, 0, 0, 0])
    (Jac.scale_rep (goodCurve1 _) hr [2, 0, 0, 0])
  exact ⟨e, _, _, (Jac.equal_iff hk hk).2 rfl, he,
    C81_converse _ [5, 0, 0, 0] [2, 0, 0, 0] [3, 0, 0, 0] e hc ((Jac.equal_iff hr hr).2 rfl) he, hc, (Jac.equal_iff hr hr).2 rfl⟩

/-- From the proof for that key the value of the victim's key 3 at its hash is computed. -/
example : ∃ e s : G2 (FpV adx), ∃ pk' : G1 (FpV adx), popVerify pk' s = some true ∧
    fromMessage (keyBytes pk') popCiphersuiteId = some e ∧
    ((s.subtract (e.scale [5, 0, 0, 0])).scale
      [0x7fffffff80000001, 0xa9ded2017fff2dff, 0x199cec0404d0ec02, 0x39f6d3a994cebea4]).equal (e.scale [3, 0, 0, 0]) = true ∧
    isOneProduct (Pairing.addPair (Pairing.addPair [] (G1.one : G1 (FpV adx)).negate ((s.subtract (e.scale [5, 0, 0, 0])).scale
      [0x7fffffff80000001, 0xa9ded2017fff2dff, 0x199cec0404d0ec02, 0x39f6d3a994cebea4])) (Keys.publicKey [3, 0, 0, 0]) e) =
      some true := by
  obtain ⟨e, s, pk', h1, h2, h3, h4, h5⟩ := rogue_case (adx := adx)
  have hb : wordsVal [2, 0, 0, 0] *
      wordsVal [0x7fffffff80000001, 0xa9ded2017fff2dff, 0x199cec0404d0ec02, 0x39f6d3a994cebea4] % q = 1 := by decide +kernel
  exact ⟨e, s, pk', h3, h2, C81_extract _ _ _ _ _ _ e s hb h4 h5 h1 h2 h3,
    C81_forgery _ _ _ _ _ e s hb (publicKey_member _) h1 h2 h3⟩

/-- The rogue key `5 G - pk`. -/
example : ∃ e s : G2 (FpV adx), ((e.scale [5, 0, 0, 0]).subtract s).equal (e.scale [3, 0, 0, 0]) = true := by
  obtain ⟨e, he, -⟩ := fromMessage_rep (K := FpV adx) sha_spec
    (keyBytes ((Keys.publicKey [5, 0, 0, 0] : G1 (FpV adx)).subtract (Keys.publicKey [3, 0, 0, 0]))) _
    (by rw [keyBytes_length]; decide) id_length.2
  obtain ⟨P, r, o⟩ := fromMessage_some id_length.2 he
  have h3 := Keys.publicKey_rep (K := FpV adx) [3, 0, 0, 0]
  have h5 := Jac.sub_rep (goodCurve1 _) (Keys.publicKey_rep (K := FpV adx) [5, 0, 0, 0]) h3
  rw [show wordsVal [5, 0, 0, 0] = 2 + 3 by decide, show wordsVal [3, 0, 0, 0] = 3 by decide, add_nsmul, add_sub_cancel_right] at h5
  have h1 : popVerify ((Keys.publicKey [5, 0, 0, 0] : G1 (FpV adx)).subtract (Keys.publicKey [3, 0, 0, 0])) (e.scale [2, 0, 0, 0]) =
      some true := by
    rw [popVerify_eq, he, Option.bind_some, some_true_iff (core_iff _ _ r o)]
    exact ⟨2, by unfold q; decide, h5, Jac.scale_rep (goodCurve2 _) r [2, 0, 0, 0]⟩
  exact ⟨e, _, C81_rogue _ [5, 0, 0, 0] [3, 0, 0, 0] e _ (G1.onCurve_iff.2 ⟨_, h3⟩) ((Jac.equal_iff h3 h3).2 rfl) he h1⟩

/-- C81: the proof of possession of the victim is not accepted for another key, and not for the rogue key in particular,
unless the hashes of the two keys are proportional as the keys are. -/
theorem C81_replay (pk pk' : G1 (FpV adx)) (e e' s : G2 (FpV adx)) (k k' : ℕ) (P P' : E2 (FpV adx))
    (hk : pk.Rep (k • gen1 (FpV adx))) (hk' : pk'.Rep (k' • gen1 (FpV adx)))
    (he : fromMessage (keyBytes pk) popCiphersuiteId = some e) (he' : fromMessage (keyBytes pk') popCiphersuiteId = some e')
    (hP : e.Rep P) (hP' : e'.Rep P') (h : popVerify pk s = some true) :
    popVerify pk' s = some true ↔ k • P = k' • P' := by
  obtain ⟨Q, n, r, o, h1, h2⟩ := popVerify_rep he h
  obtain rfl := r.unique hP
  rw [smul_of_gen o (h1.unique hk)] at h2
  obtain ⟨Q', r', o'⟩ := fromMessage_some id_length.2 he'
  obtain rfl := r'.unique hP'
  constructor
  · intro h'
    obtain ⟨R, n', rr, -, h1', h2'⟩ := popVerify_rep he' h'
    obtain rfl := rr.unique r'
    rw [smul_of_gen o' (h1'.unique hk')] at h2'
    exact h2.unique h2'
  · intro hkk
    rw [popVerify_eq, he', Option.bind_some, some_true_iff (core_iff _ _ r' o')]
    refine ⟨k' % q, Nat.mod_lt _ q_prime.pos, by rwa [smul_mod (q_smul_gen1 _)], ?_⟩
    rw [smul_mod o', ← hkk]; exact h2

/-- The weight 2 has an inverse. -/
example : wordsVal [2, 0, 0, 0] * wordsVal [0x7fffffff80000001, 0xa9ded2017fff2dff, 0x199cec0404d0ec02, 0x39f6d3a994cebea4] % q
    = 1 := by decide +kernel

end Bls.Props
