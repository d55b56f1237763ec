import Verif.Props.Vector

/-!
# C111: signatures that a third party can open

The calls of a user who hides a signature so that everyone can see that the holder of a further key can take it out (verifiably encrypted
signatures of Boneh, Gentry, Lynn and Shacham, with the key of the third party in both groups): `g2::scale`, `g2::add`, `g2::subtract`, three
times `add_pair`, `calculate`. The library has no function for it.
-/

namespace Bls.Props
open Bls Sig Pairing

attribute [local irreducible] p q eps pairVal hEff2

variable {adx : Bool} {σ : Type}

/-- The signature `s` hidden with the random number `r` for the third party with the key `A` in the second group.
Calls: `g2::scale` (include/bls12-381/scalar.hpp:348), `g2::add` (src/g.cpp:1053). -/
def hideSignature (A s : G2 (FpV adx)) (r : List UInt64) : G2 (FpV adx) × G2 (FpV adx) := (s.add (A.scale r), G2.one.scale r)

/-- What the third party with the secret key `a` takes out.
Calls: `g2::scale` (include/bls12-381/scalar.hpp:348), `g2::subtract` (src/g.cpp:1162). -/
def openSignature (a : List UInt64) (W U : G2 (FpV adx)) : G2 (FpV adx) := W.subtract (U.scale a)

/-- The test that everyone can do: `h` is the hash of the message, `A` the key of the third party in the first group.
Calls: `g1::negate` (src/g.cpp:432), `add_pair`, `calculate` (src/pairing.cpp:180-200). -/
def hiddenAccepted (pk A : G1 (FpV adx)) (h W U : G2 (FpV adx)) (cb : Option (σ → σ)) (s : σ) : Prop :=
  (calculate (added [((G1.one : G1 (FpV adx)).negate, W), (pk, h), (A, U)]) cb s).map Prod.fst = some 1

variable (cb : Option (σ → σ)) (st : σ)

theorem hidden_iff {pk A : G1 (FpV adx)} {h W U : G2 (FpV adx)} {k a t w u : ℕ} (hpk : pk.Rep (k • gen1 (FpV adx)))
    (hA : A.Rep (a • gen1 (FpV adx))) (hh : h.Rep (t • gen2 (FpV adx))) (hW : W.Rep (w • gen2 (FpV adx)))
    (hU : U.Rep (u • gen2 (FpV adx))) :
    hiddenAccepted pk A h W U cb st ↔ (w : ZMod q) = k * t + a * u := by
  have r1 := Jac.neg_rep (G1.one_rep (K := FpV adx))
  rw [← one_smul ℕ (gen1 (FpV adx)), neg_multiple (q_smul_gen1 _)] at r1
  rw [hiddenAccepted, C90_one (es := [(_, _), (_, _), (_, _)]) (.cons ⟨r1, hW⟩ (.cons ⟨hpk, hh⟩ (.cons ⟨hA, hU⟩ .nil))), List.map_cons,
    List.map_cons, List.map_cons, List.map_nil, List.sum_cons, List.sum_cons, List.sum_singleton, ← ZMod.natCast_eq_zero_iff]
  push_cast
  rw [cast_pred]
  constructor <;> intro e <;> linear_combination -e

theorem open_rep {W U : G2 (FpV adx)} {P Q : E2 (FpV adx)} (hW : W.Rep P) (hU : U.Rep Q) (a : List UInt64) :
    (openSignature a W U).Rep (P - wordsVal a • Q) :=
  Jac.sub_rep (goodCurve2 _) hW (Jac.scale_rep (goodCurve2 _) hU a)

/-- C111: the test accepts exactly the pairs from which the third party takes out a signature that `verify` accepts. -/
theorem C111_opens {pk : G1 (FpV adx)} (hpk : Member1 pk) {m : List UInt8} {h : G2 (FpV adx)} (hm : fromMessage m ciphersuiteId = some h)
    (a : List UInt64) {W U : G2 (FpV adx)} (hW : Member2 W) (hU : Member2 U) :
    hiddenAccepted pk (Keys.publicKey a) h W U cb st ↔ verify pk m (openSignature a W U) = some true := by
  obtain ⟨k, hk, rk⟩ := member1.1 hpk
  obtain ⟨P, rP, oP⟩ := fromMessage_some id_length.1 hm
  obtain ⟨t, rt⟩ := exists_multiple2 (member2.2 ⟨P, rP, oP⟩)
  obtain ⟨w, rw'⟩ := exists_multiple2 hW
  obtain ⟨u, ru⟩ := exists_multiple2 hU
  have ro := open_rep rw' ru a
  rw [hidden_iff cb st rk (Keys.publicKey_rep a) rt rw' ru, verify_true_iff]
  have key : w • gen2 (FpV adx) - wordsVal a • u • gen2 (FpV adx) = k • t • gen2 (FpV adx) ↔ (w : ZMod q) = k * t + wordsVal a * u := by
    rw [sub_eq_iff_eq_add, ← mul_nsmul', ← mul_nsmul', ← add_nsmul, nsmul_inj_mod, Keys.order_gen2, ← ZMod.natCast_eq_natCast_iff']
    push_cast
    exact Iff.rfl
  constructor
  · intro e
    exact ⟨h, _, k, hm, rt, smul_smul_zero (q_smul_gen2 _) _, hk, rk, key.2 e ▸ ro⟩
  · rintro ⟨h', P', k', hm', r', -, hk', rk', rs⟩
    rw [hm, Option.some_inj] at hm'
    subst hm'
    have e1 := (Keys.smul_gen1_eq_iff _ _).1 (rk'.unique rk)
    rw [Nat.mod_eq_of_lt hk', Nat.mod_eq_of_lt hk] at e1
    subst e1
    rw [r'.unique rt] at rs
    exact key.1 (ro.unique rs)

/-- C111: the third party takes out what has been hidden, for every point of the curve. -/
theorem C111_back (a r : List UInt64) {s : G2 (FpV adx)} (hs : s.isOnCurve Fp2.B = true) :
    (openSignature a (hideSignature (G2.one.scale a) s r).1 (hideSignature (G2.one.scale a) s r).2).equal s = true := by
  obtain ⟨P, rP⟩ := G2.onCurve_iff.1 hs
  have g := goodCurve2 (FpV adx)
  have o := G2.one_rep (K := FpV adx)
  refine (Jac.equal_iff (open_rep (Jac.add_rep g rP (Jac.scale_rep g (Jac.scale_rep g o a) r)) (Jac.scale_rep g o r) a) rP).2 ?_
  rw [smul_comm (wordsVal a), add_sub_cancel_right]

/-- C111: a hidden signature passes the test. -/
theorem C111_complete {pk : G1 (FpV adx)} {m : List UInt8} {h s : G2 (FpV adx)} (hm : fromMessage m ciphersuiteId = some h)
    (hs : verify pk m s = some true) (a r : List UInt64) :
    hiddenAccepted pk (Keys.publicKey a) h (hideSignature (G2.one.scale a) s r).1 (hideSignature (G2.one.scale a) s r).2 cb st := by
  obtain ⟨h', P, k, hm', rP, oP, hk, rk, rs⟩ := (verify_true_iff _ _ _).1 hs
  rw [hm, Option.some_inj] at hm'
  subst hm'
  obtain ⟨t, rt⟩ := exists_multiple2 (member2.2 ⟨P, rP, oP⟩)
  rw [rP.unique rt] at rs
  have g := goodCurve2 (FpV adx)
  have o := G2.one_rep (K := FpV adx)
  have r1 := Jac.add_rep g rs (Jac.scale_rep g (Jac.scale_rep g o a) r)
  rw [← mul_nsmul', ← mul_nsmul', ← add_nsmul] at r1
  refine (hidden_iff cb st rk (Keys.publicKey_rep a) rt r1 (Jac.scale_rep g o r)).2 ?_
  push_cast
  ring

/-- C111: without the key of the third party the pair says nothing about the point in it: for every point there is exactly one key below
the group order that takes it out, unless the second point is infinity. -/
theorem C111_hides {W U s : G2 (FpV adx)} (hW : Member2 W) (hU : Member2 U) (h0 : U.isZero = false) (hs : Member2 s) :
    ∃! a : List UInt64, a.length = 4 ∧ wordsVal a < q ∧ (openSignature a W U).equal s = true := by
  obtain ⟨w, rW⟩ := exists_multiple2 hW
  obtain ⟨u, rU⟩ := exists_multiple2 hU
  obtain ⟨m, rs⟩ := exists_multiple2 hs
  have hu : (u : ZMod q) ≠ 0 := fun e => by
    have := rU.isZero_iff.2 (by rw [smul_congr (b := 0) (q_smul_gen2 _) (by rw [e, Nat.cast_zero]), zero_nsmul])
    rw [h0] at this
    exact Bool.false_ne_true this
  have key : ∀ a : List UInt64, (openSignature a W U).equal s = true ↔ (wordsVal a : ZMod q) = ((w : ZMod q) - m) / u := fun a => by
    rw [Jac.equal_iff (open_rep rW rU a) rs, sub_eq_iff_eq_add, ← mul_nsmul', ← add_nsmul, nsmul_inj_mod, Keys.order_gen2,
      ← ZMod.natCast_eq_natCast_iff', eq_div_iff hu]
    push_cast
    constructor <;> intro e <;> linear_combination -e
  obtain ⟨v, hl, hv⟩ := Keys.exists_words (ZMod.val_lt (((w : ZMod q) - (m : ZMod q)) / (u : ZMod q)))
  refine ⟨v, ⟨hl, hv ▸ ZMod.val_lt _, (key v).2 (by rw [hv, ZMod.natCast_zmod_val])⟩, fun x ⟨h1, h2, h3⟩ =>
    wordsVal_inj (h1.trans hl.symm) ?_⟩
  rw [hv, ← (key x).1 h3, ZMod.val_natCast, Nat.mod_eq_of_lt h2]

/-- C111: a pair passes the test for one third party only, unless its second point is infinity. -/
theorem C111_one_party {pk A A' : G1 (FpV adx)} {h W U : G2 (FpV adx)} (hpk : Member1 pk) (hA : Member1 A) (hA' : Member1 A')
    (hh : Member2 h) (hW : Member2 W) (hU : Member2 U) (h0 : U.isZero = false) (h1 : hiddenAccepted pk A h W U cb st)
    (h2 : hiddenAccepted pk A' h W U cb st) : A.equal A' = true := by
  obtain ⟨k, rk⟩ := exists_multiple1 hpk
  obtain ⟨a, ra⟩ := exists_multiple1 hA
  obtain ⟨b, rb⟩ := exists_multiple1 hA'
  obtain ⟨t, rt⟩ := exists_multiple2 hh
  obtain ⟨w, rW⟩ := exists_multiple2 hW
  obtain ⟨u, rU⟩ := exists_multiple2 hU
  have hu : (u : ZMod q) ≠ 0 := fun e => by
    have := rU.isZero_iff.2 (by rw [smul_congr (b := 0) (q_smul_gen2 _) (by rw [e, Nat.cast_zero]), zero_nsmul])
    rw [h0] at this
    exact Bool.false_ne_true this
  rw [Jac.equal_iff ra rb]
  refine smul_congr (q_smul_gen1 _) (mul_right_cancel₀ hu ?_)
  linear_combination (hidden_iff cb st rk rb rt rW rU).1 h2 - (hidden_iff cb st rk ra rt rW rU).1 h1

theorem scale_member2 (k : List UInt64) : Member2 ((G2.one : G2 (FpV adx)).scale k) :=
  member2.2 ⟨_, Jac.scale_rep (goodCurve2 _) G2.one_rep k, smul_smul_zero (q_smul_gen2 _) _⟩

theorem nine_ne_zero2 : ((G2.one : G2 (FpV adx)).scale [9]).isZero = false := by
  rw [Bool.eq_false_iff, Ne, (Jac.scale_rep (goodCurve2 (FpV adx)) (G2.one_rep (K := FpV adx)) [9]).isZero_iff]
  have h := nsmul_inj_mod (x := gen2 (FpV adx)) (n := wordsVal [9]) (m := 0)
  rw [Keys.order_gen2, zero_nsmul] at h
  rw [h]
  decide +kernel

/-- The point 4, hidden with 9 for 5, comes back. -/
example : (openSignature [5] (hideSignature (G2.one.scale [5]) ((G2.one : G2 (FpV adx)).scale [4]) [9]).1
    (hideSignature (G2.one.scale [5]) ((G2.one : G2 (FpV adx)).scale [4]) [9]).2).equal (G2.one.scale [4]) = true :=
  C111_back _ _ (scale_member2 _).1

/-- From 100 and 9 the point 4 is taken out by one key. -/
example : ∃! a : List UInt64, a.length = 4 ∧ wordsVal a < q ∧
    (openSignature a ((G2.one : G2 (FpV adx)).scale [100]) (G2.one.scale [9])).equal (G2.one.scale [4]) = true :=
  C111_hides (scale_member2 _) (scale_member2 _) nine_ne_zero2 (scale_member2 _)

/-- A signature of "abc" with the key 7, hidden with 9 for the third party 5: the test accepts it, and what is taken out is accepted; for
the third party 6 the test rejects it. -/
example : ∃ h s : G2 (FpV adx), fromMessage [97, 98, 99] ciphersuiteId = some h ∧ sign [7, 0, 0, 0] [97, 98, 99] = some s ∧
    hiddenAccepted (Keys.publicKey [7, 0, 0, 0]) (Keys.publicKey [5]) h (hideSignature (G2.one.scale [5]) s [9]).1
      (hideSignature (G2.one.scale [5]) s [9]).2 cb st ∧
    verify (Keys.publicKey [7, 0, 0, 0]) [97, 98, 99] (openSignature [5] (hideSignature (G2.one.scale [5]) s [9]).1
      (hideSignature (G2.one.scale [5]) s [9]).2) = some true ∧
    ¬ hiddenAccepted (Keys.publicKey [7, 0, 0, 0]) (Keys.publicKey [6]) h (hideSignature (G2.one.scale [5]) s [9]).1
      (hideSignature (G2.one.scale [5]) s [9]).2 cb st := by
  obtain ⟨h, hm, -⟩ := hash_abc_ne (FpV adx)
  obtain ⟨s, hs⟩ := C45_sign_defined (adx := adx) [7, 0, 0, 0] [97, 98, 99] (by decide)
  have hv := C45_sign (adx := adx) [7, 0, 0, 0] [97, 98, 99] s hs
  obtain ⟨P, rP, oP⟩ := fromMessage_some id_length.1 hm
  have mh : Member2 h := member2.2 ⟨P, rP, oP⟩
  have ms : Member2 s := ((C46_valid _ _ _) hv).2
  have g := goodCurve2 (FpV adx)
  have o := G2.one_rep (K := FpV adx)
  obtain ⟨Q, rQ, oQ⟩ := valid2 ms
  have mW : Member2 (hideSignature (G2.one.scale [5]) s [9]).1 :=
    member2.2 ⟨_, Jac.add_rep g rQ (Jac.scale_rep g (Jac.scale_rep g o [5]) [9]), by
      rw [nsmul_add, oQ, zero_add]; exact smul_smul_zero (smul_smul_zero (q_smul_gen2 _) _) _⟩
  have hc := C111_complete cb st hm hv [5] [9]
  refine ⟨h, s, hm, hs, hc, (C111_opens cb st (key_member _) hm _ mW (scale_member2 _)).1 hc, fun hc' => ?_⟩
  have e := C111_one_party cb st (key_member _) (key_member _) (key_member _) mh mW (scale_member2 _) nine_ne_zero2 hc hc'
  rw [Jac.equal_iff (Keys.publicKey_rep _) (Keys.publicKey_rep _), Keys.smul_gen1_eq_iff] at e
  exact absurd e (by decide +kernel)

end Bls.Props
