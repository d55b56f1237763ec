import Verif.Proof.Threshold
import Verif.Proof.HashValues
import Verif.Props.Signatures

/-!
# C93: blind signatures

The user multiplies the hash of the message by a secret factor `r`, the signer multiplies the result by the key, and the user
multiplies by the inverse of `r` modulo `q`. All three steps are `g2::scale`.
-/

namespace Bls.Props
open Bls Sig

attribute [local irreducible] p q hEff2

variable {adx : Bool}

theorem blind_order {G : Type*} [AddCommGroup G] {P : G} (o : q • P = 0) (h0 : P ≠ 0) (m n : ℕ) :
    m • P = n • P ↔ m % q = n % q := by
  have : Fact q.Prime := ⟨q_prime⟩
  have h := nsmul_inj_mod (x := P) (n := m) (m := n)
  rwa [addOrderOf_eq_prime o h0] at h

theorem unblind_rep {h : G2 (FpV adx)} {P : E2 (FpV adx)} (rp : h.Rep P) (sk r r' : List UInt64) :
    (((h.scale r).scale sk).scale r').Rep ((wordsVal r * wordsVal r' * wordsVal sk) • P) := by
  have g := goodCurve2 (FpV adx)
  have h1 := Jac.scale_rep g (Jac.scale_rep g (Jac.scale_rep g rp r) sk) r'
  rwa [← mul_nsmul', ← mul_nsmul', show wordsVal r' * wordsVal sk * wordsVal r = wordsVal r * wordsVal r' * wordsVal sk by ring] at h1

/-- C93: the unblinded point is the signature of the message, and is accepted. -/
theorem C93_unblind (sk r r' : List UInt64) (hr : wordsVal r * wordsVal r' % q = 1) (m : List UInt8) (h t : G2 (FpV adx))
    (hm : fromMessage m ciphersuiteId = some h) (ht : sign sk m = some t) :
    (((h.scale r).scale sk).scale r').equal t = true ∧
    verify (Keys.publicKey sk) m (((h.scale r).scale sk).scale r') = some true := by
  obtain ⟨P, rp, o⟩ := fromMessage_some id_length.1 hm
  have h1 := unblind_rep rp sk r r'
  have h2 := sign_rep' hm ht rp
  rw [mul_nsmul, ← smul_mod o (wordsVal r * wordsVal r'), hr, one_smul] at h1
  refine ⟨(Jac.equal_iff h1 h2).2 rfl, (verify_true_iff _ _ _).2 ⟨h, P, wordsVal sk % q, hm, rp, o, Nat.mod_lt _ q_prime.pos, ?_, ?_⟩⟩
  · rw [Keys.smul_gen1_mod]; exact Keys.publicKey_rep sk
  · rwa [smul_mod o]

/-- C93: whoever unblinds with anything but the inverse gets a point that is rejected (unless the key is zero modulo `q` or the
hash is infinity). -/
theorem C93_wrong_factor (sk r r' : List UInt64) (hr : wordsVal r * wordsVal r' % q ≠ 1) (hk : ¬ q ∣ wordsVal sk)
    (m : List UInt8) (h : G2 (FpV adx)) (hm : fromMessage m ciphersuiteId = some h) (h0 : h.isZero = false) :
    verify (Keys.publicKey sk) m (((h.scale r).scale sk).scale r') = some false := by
  obtain ⟨P, rp, o⟩ := fromMessage_some id_length.1 hm
  have hP : P ≠ 0 := fun e => by rw [Bool.eq_false_iff, Ne, rp.isZero_iff] at h0; exact h0 e
  have h1 := unblind_rep rp sk r r'
  rw [verify_eq, hm, Option.bind_some]
  obtain ⟨b, e, hb⟩ := core_iff (Keys.publicKey sk) (((h.scale r).scale sk).scale r') rp o
  rw [e]
  refine congrArg some (Bool.eq_false_iff.2 fun ht => hr ?_)
  obtain ⟨n, hn, k1, k2⟩ := hb.1 ht
  have e1 := (Keys.smul_gen1_eq_iff _ _).1 (Jac.Rep.unique k1 (Keys.publicKey_rep sk))
  have e2 := (blind_order o hP _ _).1 (Jac.Rep.unique k2 h1)
  rw [e1] at e2
  have e3 : wordsVal r * wordsVal r' * wordsVal sk ≡ 1 * wordsVal sk [MOD q] := by rw [one_mul]; exact e2.symm
  have e4 := Nat.ModEq.cancel_right_of_coprime ((Nat.Prime.coprime_iff_not_dvd q_prime).2 hk) e3
  rw [Nat.ModEq, Nat.mod_eq_of_lt q_prime.one_lt] at e4
  exact e4

/-- C93: the signer learns nothing about the message. For a blinded hash and every other hash (both not infinity) there is
exactly one factor between 1 and `q - 1` with which the other one would have given the same point. -/
theorem C93_hides (h h' : G2 (FpV adx)) (hh : Member2 h) (hh' : Member2 h') (h0 : h.isZero = false) (h0' : h'.isZero = false)
    (r : List UInt64) (hr : ¬ q ∣ wordsVal r) :
    ∃! r' : List UInt64, r'.length = 4 ∧ 0 < wordsVal r' ∧ wordsVal r' < q ∧ (h'.scale r').equal (h.scale r) = true := by
  obtain ⟨P, rp, o⟩ := Pairing.valid2 hh
  obtain ⟨P', rp', o'⟩ := Pairing.valid2 hh'
  have hP : P ≠ 0 := fun e => by rw [Bool.eq_false_iff, Ne, rp.isZero_iff] at h0; exact h0 e
  have hP' : P' ≠ 0 := fun e => by rw [Bool.eq_false_iff, Ne, rp'.isZero_iff] at h0'; exact h0' e
  have hQ : wordsVal r • P ≠ 0 := fun e => hr <| by
    rw [← zero_nsmul P, blind_order o hP, Nat.zero_mod] at e
    exact Nat.dvd_of_mod_eq_zero e
  have g := goodCurve2 (FpV adx)
  have := E2_finite (FpV adx)
  have hc : wordsVal r • P ∈ AddSubgroup.zmultiples P' :=
    torsion_cyclic q_prime o' hP' (by rw [E2_card]; decide +kernel) (smul_smul_zero o _)
  obtain ⟨k, hk, e⟩ := exists_lt_smul o' hc
  obtain ⟨w, hl, hw⟩ := Keys.exists_words hk
  have key : ∀ s : List UInt64, (h'.scale s).equal (h.scale r) = true ↔ wordsVal s • P' = k • P' := fun s => by
    rw [Jac.equal_iff (Jac.scale_rep g rp' s) (Jac.scale_rep g rp r), e]
  refine ⟨w, ⟨hl, ?_, hw ▸ hk, (key w).2 (by rw [hw])⟩, fun s ⟨h1, h2, h3, h4⟩ => wordsVal_inj (h1.trans hl.symm) ?_⟩
  · rw [hw]
    refine Nat.pos_of_ne_zero fun e0 => hQ ?_
    rw [e, e0, zero_nsmul]
  · rw [key, blind_order o' hP', Nat.mod_eq_of_lt h3, Nat.mod_eq_of_lt hk] at h4
    rw [h4, hw]

theorem small_order {T : E2 (FpV adx)} {l : ℕ} (hl : l.Prime) (hq : ¬ l ∣ q) (o : l • T = 0) (h0 : T ≠ 0) :
    ∃ t : G2 (FpV adx), t.isOnCurve Fp2.B = true ∧ t.inCorrectSubgroup = false ∧
      ∀ sk sk' : List UInt64, (t.scale sk).equal (t.scale sk') = true ↔ wordsVal sk % l = wordsVal sk' % l := by
  have : Fact l.Prime := ⟨hl⟩
  have ho := addOrderOf_eq_prime o h0
  obtain ⟨t, ht⟩ := Jac.exists_rep T
  have g := goodCurve2 (FpV adx)
  refine ⟨t, G2.onCurve_iff.2 ⟨_, ht⟩, ?_, fun sk sk' => ?_⟩
  · rwa [← Bool.not_eq_true, G2.inCorrectSubgroup_iff ht, ← addOrderOf_dvd_iff_nsmul_eq_zero, ho]
  · rw [Jac.equal_iff (Jac.scale_rep g ht sk) (Jac.scale_rep g ht sk'), nsmul_inj_mod, ho]

/-- C93: a signer has to test the points for membership: five points of the curve, multiplied by the key, give it away modulo a number of
52 bits. -/
theorem C93_unchecked : ∃ t : Fin 5 → G2 (FpV adx), (∀ i, (t i).isOnCurve Fp2.B = true ∧ (t i).inCorrectSubgroup = false) ∧
    ∀ sk sk' : List UInt64, (∀ i, ((t i).scale sk).equal ((t i).scale sk') = true) ↔
      wordsVal sk % (13 * 23 * 2713 * 11953 * 262069) = wordsVal sk' % (13 * 23 * 2713 * 11953 * 262069) := by
  obtain ⟨a, a1, a2, a3⟩ := small_order (l := 13) (by norm_num) (by decide +kernel) (s13_smul (FpV adx)) (pt2_ne_zero _)
  obtain ⟨b, b1, b2, b3⟩ := small_order (l := 23) (by norm_num) (by decide +kernel) (s23_smul (FpV adx)) (pt2_ne_zero _)
  obtain ⟨c, c1, c2, c3⟩ := small_order (l := 2713) (by norm_num) (by decide +kernel) (s2713_smul (FpV adx)) (pt2_ne_zero _)
  obtain ⟨d, d1, d2, d3⟩ := small_order (l := 11953) (by norm_num) (by decide +kernel) (s11953_smul (FpV adx)) (pt2_ne_zero _)
  obtain ⟨e, e1, e2, e3⟩ := small_order (l := 262069) (by norm_num) (by decide +kernel) (s262069_smul (FpV adx)) (pt2_ne_zero _)
  refine ⟨![a, b, c, d, e], fun i => ?_, fun sk sk' => ?_⟩
  · fin_cases i
    exacts [⟨a1, a2⟩, ⟨b1, b2⟩, ⟨c1, c2⟩, ⟨d1, d2⟩, ⟨e1, e2⟩]
  · change _ ↔ _ ≡ _ [MOD _]
    rw [← Nat.modEq_and_modEq_iff_modEq_mul (by norm_num), ← Nat.modEq_and_modEq_iff_modEq_mul (by norm_num),
      ← Nat.modEq_and_modEq_iff_modEq_mul (by norm_num), ← Nat.modEq_and_modEq_iff_modEq_mul (by norm_num)]
    constructor
    · intro h
      exact ⟨⟨⟨⟨(a3 _ _).1 (h 0), (b3 _ _).1 (h 1)⟩, (c3 _ _).1 (h 2)⟩, (d3 _ _).1 (h 3)⟩, (e3 _ _).1 (h 4)⟩
    · rintro ⟨⟨⟨⟨h1, h2⟩, h3⟩, h4⟩, h5⟩ i
      fin_cases i
      exacts [(a3 _ _).2 h1, (b3 _ _).2 h2, (c3 _ _).2 h3, (d3 _ _).2 h4, (e3 _ _).2 h5]

/-- The keys 5 and 7 are told apart. -/
example : ∃ t : G2 (FpV adx), t.isOnCurve Fp2.B = true ∧ (t.scale [5]).equal (t.scale [7]) = false := by
  obtain ⟨t, h, ht⟩ := C93_unchecked (adx := adx)
  have := mt (ht [5] [7]).1 (by decide +kernel)
  obtain ⟨i, hi⟩ := not_forall.1 this
  exact ⟨t i, (h i).1, Bool.eq_false_iff.2 hi⟩

/-- The message "abc" blinded with 2 and unblinded with `(q + 1) / 2`, the inverse; unblinded with 3 it is rejected. -/
example : ∃ h : G2 (FpV adx), fromMessage [97, 98, 99] ciphersuiteId = some h ∧
    verify (Keys.publicKey [7, 0, 0, 0]) [97, 98, 99] (((h.scale [2, 0, 0, 0]).scale [7, 0, 0, 0]).scale
      [0x7fffffff80000001, 0xa9ded2017fff2dff, 0x199cec0404d0ec02, 0x39f6d3a994cebea4]) = some true ∧
    verify (Keys.publicKey [7, 0, 0, 0]) [97, 98, 99] (((h.scale [2, 0, 0, 0]).scale [7, 0, 0, 0]).scale [3, 0, 0, 0]) = some false := by
  obtain ⟨e, he, h0⟩ := hash_abc_ne (FpV adx)
  obtain ⟨t, ht⟩ := C45_sign_defined (adx := adx) [7, 0, 0, 0] [97, 98, 99] (by decide)
  exact ⟨e, he, (C93_unblind _ _ _ (by decide +kernel) _ _ t he ht).2,
    C93_wrong_factor _ _ _ (by decide +kernel) (by decide +kernel) _ _ he h0⟩

/-- The hypotheses of `C93_hides` hold for the generator and the hash of "abc". -/
example : ∃ h : G2 (FpV adx), Member2 (G2.one : G2 (FpV adx)) ∧ Member2 h ∧ (G2.one : G2 (FpV adx)).isZero = false ∧
    h.isZero = false ∧ ¬ q ∣ wordsVal [2, 0, 0, 0] := by
  obtain ⟨e, he, h0⟩ := hash_abc_ne (FpV adx)
  obtain ⟨P, rp, o⟩ := fromMessage_some id_length.1 he
  exact ⟨e, valid_one.2, member2.2 ⟨P, rp, o⟩, Jac.isZero_false.2 (G2.one_rep (K := FpV adx)).1, h0, by decide +kernel⟩

end Bls.Props
