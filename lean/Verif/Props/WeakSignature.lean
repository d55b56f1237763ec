import Verif.Props.Vector

/-!
# C112: values of numbers that only the holder of a key can compute

The calls of a user who proves with the key `x` that `(x + m)⁻¹ G` belongs to the number `m` (the weak signatures of Boneh and Boyen, the random
function of Dodis and Yampolskiy): `g1::negate`, `g1::scale`, `g2::scale`, `g2::add`, twice `add_pair`, `calculate`. The library has no function
for it.
-/

namespace Bls.Props
open Bls Sig Pairing

attribute [local irreducible] p q eps pairVal hEff2

variable {adx : Bool} {σ : Type}

/-- The test of the proof `s` for the number `m` under the key `X` in the second group: `g2::scale` (include/bls12-381/scalar.hpp:348),
`g2::add` (src/g.cpp:1053), `calculate` (src/pairing.cpp:180) and `add_pair` (src/pairing.cpp:192). -/
def inverseAccepted (X : G2 (FpV adx)) (m : List UInt64) (s : G1 (FpV adx)) (cb : Option (σ → σ)) (st : σ) : Prop :=
  (calculate (added [((G1.one : G1 (FpV adx)).negate, G2.one), (s, ((G2.one : G2 (FpV adx)).scale m).add X)]) cb st).map Prod.fst = some 1

variable (cb : Option (σ → σ)) (st : σ)

theorem inverse_iff {X : G2 (FpV adx)} {s : G1 (FpV adx)} {x k : ℕ} (hX : X.Rep (x • gen2 (FpV adx))) (hs : s.Rep (k • gen1 (FpV adx)))
    (m : List UInt64) : inverseAccepted X m s cb st ↔ (k : ZMod q) * (wordsVal m + x) = 1 := by
  have r1 := Jac.neg_rep (G1.one_rep (K := FpV adx))
  rw [← one_smul ℕ (gen1 (FpV adx)), neg_multiple (q_smul_gen1 _)] at r1
  have o := G2.one_rep (K := FpV adx)
  have r2 := Jac.add_rep (goodCurve2 (FpV adx)) (Jac.scale_rep (goodCurve2 (FpV adx)) o m) hX
  rw [← add_nsmul] at r2
  rw [← one_smul ℕ (gen2 (FpV adx))] at o
  rw [inverseAccepted, C90_one (es := [(_, _), (_, _)]) (.cons ⟨r1, o⟩ (.cons ⟨hs, r2⟩ .nil)), List.map_cons,
    List.map_cons, List.map_nil, List.sum_cons, List.sum_singleton, ← ZMod.natCast_eq_zero_iff]
  push_cast
  rw [cast_pred]
  constructor <;> intro e <;> linear_combination e

/-- C112: the test accepts exactly the point of which the `m + x`-fold is the generator. -/
theorem C112_exact (x m : List UInt64) {s : G1 (FpV adx)} (hs : Member1 s) :
    inverseAccepted (G2.one.scale x) m s cb st ↔ ((s.scale m).add (s.scale x)).equal G1.one = true := by
  obtain ⟨k, rk⟩ := exists_multiple1 hs
  have g := goodCurve1 (FpV adx)
  have r := Jac.add_rep g (Jac.scale_rep g rk m) (Jac.scale_rep g rk x)
  have o := G1.one_rep (K := FpV adx)
  rw [← one_smul ℕ (gen1 (FpV adx))] at o
  rw [← mul_nsmul', ← mul_nsmul', ← add_nsmul] at r
  rw [inverse_iff cb st (Jac.scale_rep (goodCurve2 (FpV adx)) G2.one_rep x) rk m, Jac.equal_iff r o, Keys.smul_gen1_eq_iff,
    ← ZMod.natCast_eq_natCast_iff']
  push_cast
  constructor <;> intro e <;> linear_combination e

/-- C112: the holder of the key has a proof for every number but `-x`: the multiple of the generator with the inverse of `m + x`. -/
theorem C112_complete (x m k : List UInt64) (hk : wordsVal k * (wordsVal m + wordsVal x) % q = 1) :
    inverseAccepted (G2.one.scale x) m ((G1.one : G1 (FpV adx)).scale k) cb st := by
  refine (inverse_iff cb st (Jac.scale_rep (goodCurve2 (FpV adx)) G2.one_rep x) (Jac.scale_rep (goodCurve1 (FpV adx)) G1.one_rep k) m).2 ?_
  have : ((wordsVal k * (wordsVal m + wordsVal x) : ℕ) : ZMod q) = (1 : ℕ) :=
    (ZMod.natCast_eq_natCast_iff' _ _ q).2 (by rw [hk, Nat.mod_eq_of_lt q_prime.one_lt])
  push_cast at this
  exact this

/-- C112: there is a proof for the number exactly if `m + x` is not zero modulo the group order. -/
theorem C112_exists (x m : List UInt64) :
    (∃ s : G1 (FpV adx), Member1 s ∧ inverseAccepted (G2.one.scale x) m s cb st) ↔ ¬ q ∣ wordsVal m + wordsVal x := by
  have rx := Jac.scale_rep (goodCurve2 (FpV adx)) (G2.one_rep (K := FpV adx)) x
  rw [← ZMod.natCast_eq_zero_iff]
  push_cast
  constructor
  · rintro ⟨s, hs, ha⟩ e
    obtain ⟨k, rk⟩ := exists_multiple1 hs
    have := (inverse_iff cb st rx rk m).1 ha
    rw [e, mul_zero] at this
    exact zero_ne_one this
  · intro h
    obtain ⟨w, -, hw⟩ := Keys.exists_words (ZMod.val_lt ((wordsVal m + wordsVal x : ZMod q)⁻¹))
    refine ⟨G1.one.scale w, scale_member w, (inverse_iff cb st rx (Jac.scale_rep (goodCurve1 (FpV adx)) G1.one_rep w) m).2 ?_⟩
    rw [hw, ZMod.natCast_zmod_val, inv_mul_cancel₀ h]

/-- C112: proofs that are accepted under one key are the same point exactly if they are for the same number modulo the group order. -/
theorem C112_unique {X : G2 (FpV adx)} (hX : Member2 X) {s s' : G1 (FpV adx)} (hs : Member1 s) (hs' : Member1 s') (m m' : List UInt64)
    (h : inverseAccepted X m s cb st) (h' : inverseAccepted X m' s' cb st) :
    s.equal s' = true ↔ wordsVal m % q = wordsVal m' % q := by
  obtain ⟨x, rx⟩ := exists_multiple2 hX
  obtain ⟨k, rk⟩ := exists_multiple1 hs
  obtain ⟨k', rk'⟩ := exists_multiple1 hs'
  have e := (inverse_iff cb st rx rk m).1 h
  have e' := (inverse_iff cb st rx rk' m').1 h'
  rw [Jac.equal_iff rk rk', Keys.smul_gen1_eq_iff, ← ZMod.natCast_eq_natCast_iff', ← ZMod.natCast_eq_natCast_iff']
  constructor
  · intro hk
    rw [← hk] at e'
    linear_combination (-(wordsVal m : ZMod q) - x) * e' + (wordsVal m' + x : ZMod q) * e
  · intro hm
    rw [← hm] at e'
    linear_combination (-(k : ZMod q)) * e' + (k' : ZMod q) * e

/-- C112: the values of numbers, the pairings of their proofs with the generator, are the same exactly if the numbers are the same
modulo the group order; no proof that is accepted gives another value. -/
theorem C112_value {X : G2 (FpV adx)} (hX : Member2 X) {s s' : G1 (FpV adx)} (hs : Member1 s) (hs' : Member1 s') (m m' : List UInt64)
    (h : inverseAccepted X m s cb st) (h' : inverseAccepted X m' s' cb st) :
    pairing s G2.one cb st = pairing s' G2.one cb st ↔ wordsVal m % q = wordsVal m' % q := by
  rw [← C112_unique cb st hX hs hs' m m' h h']
  obtain ⟨k, rk⟩ := exists_multiple1 hs
  obtain ⟨k', rk'⟩ := exists_multiple1 hs'
  have o := G2.one_rep (K := FpV adx)
  rw [← one_smul ℕ (gen2 (FpV adx))] at o
  have e := C90_equal (l := [(s, G2.one)]) (l' := [(s', G2.one)]) (es := [(k, 1)]) (es' := [(k', 1)]) (.cons ⟨rk, o⟩ .nil) (.cons ⟨rk', o⟩ .nil) cb st
  rw [List.map_singleton, List.map_singleton, List.sum_singleton, List.sum_singleton, mul_one, mul_one] at e
  rw [Jac.equal_iff rk rk', Keys.smul_gen1_eq_iff]
  exact e

/-- C112: an accepted proof for a number is accepted for no number and key with another sum: a proof for `m` under the key `x` is also one for
`m + d` under the key `x - d`. -/
theorem C112_shift {X Y : G2 (FpV adx)} (hX : Member2 X) (hY : Member2 Y) {s : G1 (FpV adx)} (hs : Member1 s) (m m' : List UInt64)
    (h : inverseAccepted X m s cb st) :
    inverseAccepted Y m' s cb st ↔ ((G2.one.scale m').add Y).equal ((G2.one.scale m).add X) = true := by
  obtain ⟨x, rx⟩ := exists_multiple2 hX
  obtain ⟨y, ry⟩ := exists_multiple2 hY
  obtain ⟨k, rk⟩ := exists_multiple1 hs
  have e := (inverse_iff cb st rx rk m).1 h
  have g := goodCurve2 (FpV adx)
  have o := G2.one_rep (K := FpV adx)
  have r1 := Jac.add_rep g (Jac.scale_rep g o m) rx
  have r2 := Jac.add_rep g (Jac.scale_rep g o m') ry
  rw [← add_nsmul] at r1 r2
  rw [inverse_iff cb st ry rk m', Jac.equal_iff r2 r1, nsmul_inj_mod, Keys.order_gen2, ← ZMod.natCast_eq_natCast_iff']
  push_cast
  have hk : (k : ZMod q) ≠ 0 := fun h0 => by rw [h0, zero_mul] at e; exact zero_ne_one e
  constructor
  · intro e'
    exact mul_left_cancel₀ hk (e'.trans e.symm)
  · intro e'
    rw [e', e]

theorem inverse_scale_member2 (k : List UInt64) : Member2 ((G2.one : G2 (FpV adx)).scale k) :=
  member2.2 ⟨_, Jac.scale_rep (goodCurve2 _) G2.one_rep k, smul_smul_zero (q_smul_gen2 _) _⟩

/-- The half of the group order, rounded up: the inverse of two. -/
def inverseHalf : List UInt64 := [0x7fffffff80000001, 0xa9ded2017fff2dff, 0x199cec0404d0ec02, 0x39f6d3a994cebea4]

/-- The inverse of two is the proof for the numbers and keys with the sum two: for 2 under the key 0, but not for 2 under the key 7. -/
example : inverseAccepted (G2.one.scale [1]) [1] ((G1.one : G1 (FpV adx)).scale inverseHalf) cb st ∧
    inverseAccepted (G2.one.scale [0]) [2] ((G1.one : G1 (FpV adx)).scale inverseHalf) cb st ∧
    ¬ inverseAccepted (G2.one.scale [7]) [2] ((G1.one : G1 (FpV adx)).scale inverseHalf) cb st := by
  have h1 := C112_complete (adx := adx) cb st [1] [1] inverseHalf (by decide +kernel)
  refine ⟨h1, C112_complete (adx := adx) cb st [0] [2] inverseHalf (by decide +kernel), fun h => ?_⟩
  have e := (C112_shift cb st (inverse_scale_member2 _) (inverse_scale_member2 _) (scale_member _) [1] [2] h1).1 h
  have g := goodCurve2 (FpV adx)
  have o := G2.one_rep (K := FpV adx)
  rw [Jac.equal_iff (Jac.add_rep g (Jac.scale_rep g o _) (Jac.scale_rep g o _)) (Jac.add_rep g (Jac.scale_rep g o _) (Jac.scale_rep g o _)),
    ← add_nsmul, ← add_nsmul, nsmul_inj_mod, Keys.order_gen2] at e
  exact absurd e (by decide +kernel)

/-- The numbers 1 and 0 under the key 1 have the proofs 1/2 and 1, which give different values. -/
example : pairing ((G1.one : G1 (FpV adx)).scale inverseHalf) G2.one cb st ≠ pairing ((G1.one : G1 (FpV adx)).scale [1]) G2.one cb st := fun h =>
  absurd ((C112_value cb st (inverse_scale_member2 _) (scale_member _) (scale_member _) [1] [0]
    (C112_complete (adx := adx) cb st [1] [1] inverseHalf (by decide +kernel))
    (C112_complete (adx := adx) cb st [1] [0] [1] (by decide +kernel))).1 h) (by decide +kernel)

/-- Under the key 7 there is a proof for 5. -/
example : ∃ s : G1 (FpV adx), Member1 s ∧ inverseAccepted (G2.one.scale [7]) [5] s cb st :=
  (C112_exists cb st [7] [5]).2 (by decide +kernel)

end Bls.Props
