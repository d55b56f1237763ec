import Verif.Proof.Binding
import Verif.Proof.Threshold
import Verif.Proof.HashValues
import Verif.Proof.Target
import Verif.Props.Signatures

/-!
# C94: secrets made with the pairing

A sender locks a secret with `e(r pk, H(m))` and publishes `r G`; a signature `s` unlocks it as `e(r G, s)`. Three parties make a
common secret from one round of messages. `pairing`, `Member1`, `Member2`: `Props/Bilinear.lean`.
-/

namespace Bls.Props
open Bls Sig Pairing

attribute [local irreducible] p q hEff2 eps

variable {adx : Bool} {σ : Type}

/-- C94: exactly the points that `verify` accepts unlock the secret. -/
theorem C94_unlock (pk : G1 (FpV adx)) (s h : G2 (FpV adx)) (hpk : Member1 pk) (hs : Member2 s) (m : List UInt8)
    (hm : fromMessage m ciphersuiteId = some h) (r : List UInt64) (hr : ¬ q ∣ wordsVal r) (y : Option (σ → σ)) (t : σ) :
    ∃ k k', pairing (pk.scale r) h y t = some k ∧ pairing (G1.one.scale r) s y t = some k' ∧
      (k' = k ↔ verify pk m s = some true) := by
  obtain ⟨P, rp, o⟩ := fromMessage_some id_length.1 hm
  obtain ⟨n, hn, rk⟩ := member1.1 hpk
  obtain ⟨S, rs, os⟩ := valid2 hs
  have g := goodCurve1 (FpV adx)
  refine ⟨_, _, calc_eps (Jac.scale_rep g rk r) rp y t, calc_eps (Jac.scale_rep g G1.one_rep r) rs y t, ?_⟩
  have o1 := q_smul_gen1 (FpV adx)
  rw [← mul_nsmul', eps_move os, eps_move o, mul_nsmul]
  have hi : eps (gen1 (FpV adx)) (wordsVal r • S) = eps (gen1 _) (n • wordsVal r • P) ↔ S = n • P := by
    refine ⟨fun e => ?_, fun e => by rw [e, smul_comm]⟩
    have := eps_inj_right o1 (gen1_ne_zero _) (smul_smul_zero os _) (smul_smul_zero (smul_smul_zero o _) _) e
    rw [smul_comm] at this
    exact smul_cancel os (smul_smul_zero o _) hr this
  have hv : verify pk m s = some true ↔ S = n • P := by
    rw [verify_true_iff]
    constructor
    · rintro ⟨a, P', n', e, r', -, hn', h1, h2⟩
      obtain rfl := Option.some.inj (hm.symm.trans e)
      obtain rfl := Jac.Rep.unique r' rp
      have := (Keys.smul_gen1_eq_iff _ _).1 (Jac.Rep.unique h1 rk)
      rw [Nat.mod_eq_of_lt hn, Nat.mod_eq_of_lt hn'] at this
      rw [← this]
      exact Jac.Rep.unique rs h2
    · rintro rfl
      exact ⟨h, P, n, hm, rp, o, hn, rk, rs⟩
  rw [hv, ← hi]

/-- C94: different factors modulo `q` give different secrets. -/
theorem C94_fresh (pk : G1 (FpV adx)) (h : G2 (FpV adx)) (hpk : Member1 pk) (hh : Member2 h) (h0 : pk.isZero = false)
    (h1 : h.isZero = false) (r r' : List UInt64) (y : Option (σ → σ)) (t : σ) :
    pairing (pk.scale r) h y t = pairing (pk.scale r') h y t ↔ wordsVal r % q = wordsVal r' % q := by
  obtain ⟨P, rp, o⟩ := valid1 hpk
  obtain ⟨Q, rq, oq⟩ := valid2 hh
  rw [Bool.eq_false_iff, Ne, rp.isZero_iff] at h0
  rw [Bool.eq_false_iff, Ne, rq.isZero_iff] at h1
  have g := goodCurve1 (FpV adx)
  rw [pairing, pairing, calc_eps (Jac.scale_rep g rp r) rq, calc_eps (Jac.scale_rep g rp r') rq, Option.some_inj,
    eps_smul_left o oq, eps_smul_left o oq]
  have hp := eps_primitive o oq h0 h1
  rw [pow_eq_pow_mod _ hp.pow_eq_one, pow_eq_pow_mod (wordsVal r') hp.pow_eq_one]
  exact ⟨hp.pow_inj (Nat.mod_lt _ q_prime.pos) (Nat.mod_lt _ q_prime.pos), fun h => by rw [h]⟩

/-- The factors 3 and 5 give different secrets. -/
example (y : Option (σ → σ)) (t : σ) :
    pairing ((G1.one : G1 (FpV adx)).scale [3]) G2.one y t ≠ pairing ((G1.one : G1 (FpV adx)).scale [5]) G2.one y t := by
  have h0 : (G1.one : G1 (FpV adx)).isZero = false := by
    rw [Bool.eq_false_iff, Ne, G1.one_rep.isZero_iff]; exact gen1_ne_zero _
  have h1 : (G2.one : G2 (FpV adx)).isZero = false := by
    rw [Bool.eq_false_iff, Ne, G2.one_rep.isZero_iff]; exact gen2_ne_zero _
  rw [Ne, C94_fresh _ _ valid_one.1 valid_one.2 h0 h1]
  decide +kernel

/-- C94: three parties that publish `a G`, `a H`; `b G`, `b H`; `c G`, `c H` compute the same secret, each with the own factor and
points of the two others. -/
theorem C94_three (a b c : List UInt64) (y : Option (σ → σ)) (t : σ) :
    pairing (((G1.one : G1 (FpV adx)).scale b).scale a) (G2.one.scale c) y t =
      some (gtGen (fun n => (n : FpV adx)) ^ (wordsVal a * wordsVal b * wordsVal c)) ∧
    pairing (((G1.one : G1 (FpV adx)).scale c).scale b) (G2.one.scale a) y t =
      some (gtGen (fun n => (n : FpV adx)) ^ (wordsVal a * wordsVal b * wordsVal c)) ∧
    pairing (((G1.one : G1 (FpV adx)).scale a).scale c) (G2.one.scale b) y t =
      some (gtGen (fun n => (n : FpV adx)) ^ (wordsVal a * wordsVal b * wordsVal c)) := by
  have key : ∀ a b c : List UInt64, pairing (((G1.one : G1 (FpV adx)).scale b).scale a) (G2.one.scale c) y t =
      some (gtGen (fun n => (n : FpV adx)) ^ (wordsVal a * wordsVal b * wordsVal c)) := fun a b c => by
    have g := goodCurve1 (FpV adx)
    have o1 := q_smul_gen1 (FpV adx)
    have o2 := q_smul_gen2 (FpV adx)
    rw [pairing, calc_eps (Jac.scale_rep g (Jac.scale_rep g G1.one_rep b) a) (Jac.scale_rep (goodCurve2 (FpV adx)) G2.one_rep c),
      eps_smul_left (smul_smul_zero o1 _) (smul_smul_zero o2 _), eps_smul_left o1 (smul_smul_zero o2 _), eps_smul_right o1 o2, eps_gen,
      ← pow_mul, ← pow_mul]
    congr 2
    ring
  refine ⟨key a b c, (key b c a).trans ?_, (key c a b).trans ?_⟩
  · rw [show wordsVal b * wordsVal c * wordsVal a = wordsVal a * wordsVal b * wordsVal c by ring]
  · rw [show wordsVal c * wordsVal a * wordsVal b = wordsVal a * wordsVal b * wordsVal c by ring]

/-- C94: the common secret is one, which anybody knows, exactly if one of the factors is zero modulo `q`. -/
theorem C94_three_one (a b c : List UInt64) (y : Option (σ → σ)) (t : σ) :
    pairing (((G1.one : G1 (FpV adx)).scale b).scale a) (G2.one.scale c) y t = some 1 ↔
      q ∣ wordsVal a ∨ q ∣ wordsVal b ∨ q ∣ wordsVal c := by
  have hp := eps_primitive (q_smul_gen1 (FpV adx)) (q_smul_gen2 _) (gen1_ne_zero _) (gen2_ne_zero _)
  rw [(C94_three a b c y t).1, Option.some_inj, ← eps_gen, hp.pow_eq_one_iff_dvd, q_prime.dvd_mul, q_prime.dvd_mul, or_assoc]

/-- The signature of "abc" by the key 7 unlocks the secret with the factor 2; infinity does not. -/
example (y : Option (σ → σ)) (t : σ) : ∃ (h s : G2 (FpV adx)) (k : _), fromMessage [97, 98, 99] ciphersuiteId = some h ∧
    sign [7, 0, 0, 0] [97, 98, 99] = some s ∧ pairing ((Keys.publicKey [7, 0, 0, 0] : G1 (FpV adx)).scale [2, 0, 0, 0]) h y t = some k ∧
    pairing (G1.one.scale [2, 0, 0, 0]) s y t = some k ∧ pairing (G1.one.scale [2, 0, 0, 0]) Jac.zero y t ≠ some k := by
  obtain ⟨e, he, h0⟩ := hash_abc_ne (FpV adx)
  obtain ⟨s, hs⟩ := C45_sign_defined (adx := adx) [7, 0, 0, 0] [97, 98, 99] (by decide)
  obtain ⟨P, r, o⟩ := fromMessage_some id_length.1 he
  have rs := sign_rep' he hs r
  have ms : Member2 s := member2.2 ⟨_, rs, smul_smul_zero o _⟩
  have mk : Member1 (Keys.publicKey [7, 0, 0, 0] : G1 (FpV adx)) :=
    member1.2 ⟨7, by decide +kernel, by have := Keys.publicKey_rep (K := FpV adx) [7, 0, 0, 0]; rwa [show wordsVal [7, 0, 0, 0] = 7 by decide +kernel] at this⟩
  have hz : s.isZero = false := by
    rw [Bool.eq_false_iff, Ne, sign_zero_iff he hs, h0]
    decide +kernel
  obtain ⟨k, k', h1, h2, h3⟩ := C94_unlock _ s e mk ms _ he [2, 0, 0, 0] (by decide +kernel) y t
  have hv := C45_sign [7, 0, 0, 0] _ s hs
  obtain rfl := h3.2 hv
  refine ⟨e, s, k', he, hs, h1, h2, ?_⟩
  have r2 := Jac.scale_rep (goodCurve1 (FpV adx)) G1.one_rep [2, 0, 0, 0]
  rw [show wordsVal [2, 0, 0, 0] = 2 by decide +kernel] at r2
  rw [C34_infinity _ _ (.inr ((Jac.zero_rep : (Jac.zero : G2 (FpV adx)).Rep (0 : E2 (FpV adx))).isZero_iff.2 rfl)), ← h2, ne_comm, Ne,
    C34_nondegenerate _ _ (member1.2 ⟨2, by decide +kernel, r2⟩) ms, hz, r2.isZero_iff, ← zero_nsmul (gen1 _),
    Keys.smul_gen1_eq_iff]
  decide +kernel

end Bls.Props
