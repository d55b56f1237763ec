import Verif.Props.Vector

/-!
# C113: one point for a set of numbers

The calls of a user who keeps a set of numbers as one point and shows with a second point that a number is in it (the accumulator of Nguyen):
`g1::scale`, `g1::add`, `g1::subtract`, `g1::negate`, `g2::scale`, `g2::add`, twice `add_pair`, `calculate`. The library has no function for it.
-/

namespace Bls.Props
open Bls Sig Pairing

attribute [local irreducible] p q eps pairVal hEff2

variable {adx : Bool} {σ : Type}

/-- The point of the manager for the numbers `xs`, with the secret `τ`.
Calls: `g1::scale` (include/bls12-381/scalar.hpp:331), `g1::add` (src/g.cpp:332). -/
def accumulate (τ : List UInt64) (xs : List (List UInt64)) : G1 (FpV adx) :=
  xs.foldl (fun P x => (P.scale x).add (P.scale τ)) G1.one

/-- The test that `x` is in the set of the point `V` with the witness `W`; `T` is the multiple of the second generator with the secret.
Calls: `g1::negate` (src/g.cpp:432), `g2::scale` (include/bls12-381/scalar.hpp:348), `g2::add` (src/g.cpp:1053), `add_pair`, `calculate`
(src/pairing.cpp:180-200). -/
def elementAccepted (T : G2 (FpV adx)) (V : G1 (FpV adx)) (x : List UInt64) (W : G1 (FpV adx)) (cb : Option (σ → σ)) (st : σ) : Prop :=
  (calculate (added [(V.negate, G2.one), (W, ((G2.one : G2 (FpV adx)).scale x).add T)]) cb st).map Prod.fst = some 1

/-- The witness for `x` after `y` has come in, made by its holder without the secret.
Calls: `g1::scale` (include/bls12-381/scalar.hpp:331), `g1::add` (src/g.cpp:332), `g1::subtract` (src/g.cpp:441). -/
def witnessAfter (V W : G1 (FpV adx)) (x y : List UInt64) : G1 (FpV adx) := V.add ((W.scale y).subtract (W.scale x))

variable (cb : Option (σ → σ)) (st : σ)

theorem element_iff {T : G2 (FpV adx)} {V W : G1 (FpV adx)} {t v w : ℕ} (hT : T.Rep (t • gen2 (FpV adx))) (hV : V.Rep (v • gen1 (FpV adx)))
    (hW : W.Rep (w • gen1 (FpV adx))) (x : List UInt64) : elementAccepted T V x W cb st ↔ (w : ZMod q) * (wordsVal x + t) = v := by
  have r1 := Jac.neg_rep hV
  rw [neg_multiple (q_smul_gen1 _)] at r1
  have o := G2.one_rep (K := FpV adx)
  have r2 := Jac.add_rep (goodCurve2 (FpV adx)) (Jac.scale_rep (goodCurve2 (FpV adx)) o x) hT
  rw [← add_nsmul] at r2
  rw [← one_smul ℕ (gen2 (FpV adx))] at o
  rw [elementAccepted, C90_one (es := [(_, _), (_, _)]) (.cons ⟨r1, o⟩ (.cons ⟨hW, r2⟩ .nil)), List.map_cons,
    List.map_cons, List.map_nil, List.sum_cons, List.sum_singleton, ← ZMod.natCast_eq_zero_iff]
  push_cast
  rw [cast_pred]
  constructor <;> intro e <;> linear_combination e

theorem step_rep {P : G1 (FpV adx)} {k : ℕ} (hP : P.Rep (k • gen1 (FpV adx))) (x τ : List UInt64) :
    ((P.scale x).add (P.scale τ)).Rep ((k * (wordsVal x + wordsVal τ)) • gen1 (FpV adx)) := by
  have g := goodCurve1 (FpV adx)
  have r := Jac.add_rep g (Jac.scale_rep g hP x) (Jac.scale_rep g hP τ)
  rwa [← mul_nsmul', ← mul_nsmul', ← add_nsmul, ← add_mul, mul_comm] at r

theorem foldl_rep (τ : List UInt64) (xs : List (List UInt64)) : ∀ {P : G1 (FpV adx)} {k : ℕ}, P.Rep (k • gen1 (FpV adx)) →
    (xs.foldl (fun P x => (P.scale x).add (P.scale τ)) P).Rep ((k * (xs.map fun x => wordsVal x + wordsVal τ).prod) • gen1 (FpV adx)) := by
  induction xs with
  | nil => intro P k h; simpa using h
  | cons x xs ih =>
    intro P k h
    rw [List.map_cons, List.prod_cons, ← mul_assoc]
    exact ih (step_rep h x τ)

theorem accumulate_rep (τ : List UInt64) (xs : List (List UInt64)) :
    (accumulate τ xs : G1 (FpV adx)).Rep ((xs.map fun x => wordsVal x + wordsVal τ).prod • gen1 (FpV adx)) := by
  have := foldl_rep (adx := adx) τ xs (P := G1.one) (k := 1) (by rw [one_smul]; exact G1.one_rep)
  rwa [one_mul] at this

/-- C113: the test accepts exactly the point of which the `x + τ`-fold is the point of the set. -/
theorem C113_exact (τ x : List UInt64) {V W : G1 (FpV adx)} (hV : Member1 V) (hW : Member1 W) :
    elementAccepted (G2.one.scale τ) V x W cb st ↔ ((W.scale x).add (W.scale τ)).equal V = true := by
  obtain ⟨v, rv⟩ := exists_multiple1 hV
  obtain ⟨w, rw'⟩ := exists_multiple1 hW
  rw [element_iff cb st (Jac.scale_rep (goodCurve2 (FpV adx)) G2.one_rep τ) rv rw' x, Jac.equal_iff (step_rep rw' x τ) rv,
    Keys.smul_gen1_eq_iff, ← ZMod.natCast_eq_natCast_iff']
  push_cast
  exact Iff.rfl

/-- C113: the point does not depend on the order in which the numbers come in. -/
theorem C113_order (τ : List UInt64) {xs ys : List (List UInt64)} (h : xs.Perm ys) :
    (accumulate τ xs : G1 (FpV adx)).equal (accumulate τ ys) = true := by
  rw [Jac.equal_iff (accumulate_rep τ xs) (accumulate_rep τ ys), (h.map _).prod_eq]

/-- C113: for a number of the set the point of the other numbers is a witness. -/
theorem C113_complete (τ x : List UInt64) (l r : List (List UInt64)) :
    elementAccepted (G2.one.scale τ) (accumulate τ (l ++ x :: r) : G1 (FpV adx)) x (accumulate τ (l ++ r)) cb st := by
  refine (element_iff cb st (Jac.scale_rep (goodCurve2 (FpV adx)) G2.one_rep τ) (accumulate_rep τ _) (accumulate_rep τ _) x).2 ?_
  rw [List.map_append, List.map_append, List.map_cons, List.prod_append, List.prod_append, List.prod_cons]
  push_cast
  ring

/-- C113: the point of the set is infinity exactly if a number of the set is the opposite of the secret modulo the group order. -/
theorem C113_infinity (τ : List UInt64) (xs : List (List UInt64)) :
    (accumulate τ xs : G1 (FpV adx)).isZero = true ↔ ∃ x ∈ xs, q ∣ wordsVal x + wordsVal τ := by
  rw [(accumulate_rep τ xs).isZero_iff, ← zero_nsmul (gen1 (FpV adx)), Keys.smul_gen1_eq_iff, Nat.zero_mod, ← Nat.dvd_iff_mod_eq_zero,
    (Nat.prime_iff.1 q_prime).dvd_prod_iff]
  simp only [List.mem_map, exists_exists_and_eq_and]

/-- C113: the test does not show that a number is in the set: for every point and every number but the opposite of the secret there is a
witness, and only one. What keeps it from being made is that the secret is not known. -/
theorem C113_any {T : G2 (FpV adx)} {V : G1 (FpV adx)} (hT : Member2 T) (hV : Member1 V) (x : List UInt64)
    (hx : ((G2.one.scale x).add T).isZero = false) :
    ∃ W : G1 (FpV adx), Member1 W ∧ elementAccepted T V x W cb st ∧
      ∀ W' : G1 (FpV adx), Member1 W' → elementAccepted T V x W' cb st → W'.equal W = true := by
  obtain ⟨t, rt⟩ := exists_multiple2 hT
  obtain ⟨v, rv⟩ := exists_multiple1 hV
  have r2 := Jac.add_rep (goodCurve2 (FpV adx)) (Jac.scale_rep (goodCurve2 (FpV adx)) G2.one_rep x) rt
  rw [← add_nsmul] at r2
  have hd : (wordsVal x + t : ZMod q) ≠ 0 := fun e => by
    have := r2.isZero_iff.2 (by rw [smul_congr (b := 0) (q_smul_gen2 _) (by push_cast; exact e), zero_nsmul])
    rw [hx] at this
    exact Bool.false_ne_true this
  obtain ⟨w, -, hw⟩ := Keys.exists_words (ZMod.val_lt ((v : ZMod q) / ((wordsVal x : ZMod q) + (t : ZMod q))))
  have rw' := Jac.scale_rep (goodCurve1 (FpV adx)) (G1.one_rep (K := FpV adx)) w
  have hwv : (wordsVal w : ZMod q) * (wordsVal x + t) = v := by rw [hw, ZMod.natCast_zmod_val, div_mul_cancel₀ _ hd]
  refine ⟨G1.one.scale w, scale_member w, (element_iff cb st rt rv rw' x).2 hwv, fun W' hW' ha => ?_⟩
  obtain ⟨k, rk⟩ := exists_multiple1 hW'
  rw [Jac.equal_iff rk rw']
  exact smul_congr (q_smul_gen1 _) (mul_right_cancel₀ hd (((element_iff cb st rt rv rk x).1 ha).trans hwv.symm))

/-- C113: when another number comes in, the holder of a witness makes the new one without the secret; it passes exactly if the old one did. -/
theorem C113_update (τ x y : List UInt64) {V W : G1 (FpV adx)} (hV : Member1 V) (hW : Member1 W) (hxy : wordsVal x % q ≠ wordsVal y % q) :
    elementAccepted (G2.one.scale τ) ((V.scale y).add (V.scale τ)) x (witnessAfter V W x y) cb st ↔
      elementAccepted (G2.one.scale τ) V x W cb st := by
  obtain ⟨v, rv⟩ := exists_multiple1 hV
  obtain ⟨w, rw'⟩ := exists_multiple1 hW
  have g := goodCurve1 (FpV adx)
  have rt := Jac.scale_rep (goodCurve2 (FpV adx)) (G2.one_rep (K := FpV adx)) τ
  have ra := Jac.add_rep g rv (Jac.sub_rep g (Jac.scale_rep g rw' y) (Jac.scale_rep g rw' x))
  rw [sub_eq_add_neg, ← mul_nsmul', ← mul_nsmul', neg_multiple (q_smul_gen1 _), ← add_nsmul, ← add_nsmul] at ra
  rw [element_iff cb st rt rv rw' x, witnessAfter, element_iff cb st rt (step_rep rv y τ) ra x]
  have hd : (wordsVal y : ZMod q) - wordsVal x ≠ 0 := fun e =>
    hxy ((ZMod.natCast_eq_natCast_iff' _ _ q).1 (sub_eq_zero.1 e).symm)
  push_cast
  rw [cast_pred]
  constructor
  · intro e
    exact mul_left_cancel₀ hd (by linear_combination e)
  · intro e
    linear_combination ((wordsVal y : ZMod q) - wordsVal x) * e

/-- With the secret 5: the set of 2, 3, 4 has the point 7 * 8 * 9, the witness of 3 is the point of 2 and 4. -/
example : elementAccepted (G2.one.scale [5]) (accumulate [5] [[2], [3], [4]] : G1 (FpV adx)) [3] (accumulate [5] [[2], [4]]) cb st ∧
    (accumulate [5] [[2], [3], [4]] : G1 (FpV adx)).equal (G1.one.scale [504]) = true ∧
    (accumulate [5] [[2], [3], [4]] : G1 (FpV adx)).equal (accumulate [5] [[4], [2], [3]]) = true := by
  refine ⟨C113_complete cb st [5] [3] [[2]] [[4]], ?_, C113_order _ (by decide)⟩
  rw [Jac.equal_iff (accumulate_rep _ _) (Jac.scale_rep (goodCurve1 (FpV adx)) G1.one_rep _)]
  rfl

/-- The same witness is not one for 2. -/
example : ¬ elementAccepted (G2.one.scale [5]) (accumulate [5] [[2], [3], [4]] : G1 (FpV adx)) [2] (accumulate [5] [[2], [4]]) cb st := by
  have h := element_iff (adx := adx) cb st (Jac.scale_rep (goodCurve2 (FpV adx)) G2.one_rep [5]) (accumulate_rep [5] [[2], [3], [4]])
    (accumulate_rep [5] [[2], [4]]) [2]
  rw [h]
  intro e
  have : ((441 : ℕ) : ZMod q) = (504 : ℕ) := by
    have e1 : (([[2], [4]] : List (List UInt64)).map fun x => wordsVal x + wordsVal [5]).prod = 63 := by decide +kernel
    have e2 : (([[2], [3], [4]] : List (List UInt64)).map fun x => wordsVal x + wordsVal [5]).prod = 504 := by decide +kernel
    have e3 : wordsVal [2] = 2 := by decide +kernel
    have e4 : wordsVal [5] = 5 := by decide +kernel
    rw [e1, e2, e3, e4] at e
    push_cast at e ⊢
    linear_combination e
  rw [ZMod.natCast_eq_natCast_iff'] at this
  exact absurd this (by decide +kernel)

/-- Number 6 comes into the set of 2 and 3; the witness of 3 is changed to a point that passes. -/
example : elementAccepted (G2.one.scale [5]) (((G1.one : G1 (FpV adx)).scale [56]).scale [6] |>.add ((G1.one.scale [56]).scale [5])) [3]
    (witnessAfter (G1.one.scale [56]) (G1.one.scale [7]) [3] [6]) cb st := by
  refine (C113_update cb st [5] [3] [6] (scale_member _) (scale_member _) (by decide +kernel)).2
    ((C113_exact cb st [5] [3] (scale_member _) (scale_member _)).2 ?_)
  have g := goodCurve1 (FpV adx)
  have r := Jac.scale_rep g (G1.one_rep (K := FpV adx)) [7]
  rw [Jac.equal_iff (step_rep r [3] [5]) (Jac.scale_rep g G1.one_rep _)]
  rfl

/-- With the secret 5 there is a witness for 100, which is not in the set of 2, 3, 4. -/
example : ∃ W : G1 (FpV adx), Member1 W ∧ elementAccepted (G2.one.scale [5]) (accumulate [5] [[2], [3], [4]]) [100] W cb st := by
  have g := goodCurve2 (FpV adx)
  have o := G2.one_rep (K := FpV adx)
  obtain ⟨W, hW, ha, -⟩ := C113_any (adx := adx) cb st (T := G2.one.scale [5]) (V := accumulate [5] [[2], [3], [4]])
    (member2.2 ⟨_, Jac.scale_rep g o _, smul_smul_zero (q_smul_gen2 _) _⟩)
    (member1.2 ⟨_, Nat.mod_lt _ q_prime.pos, by
      rw [smul_congr (q_smul_gen1 _) (ZMod.natCast_mod _ q)]; exact accumulate_rep [5] [[2], [3], [4]]⟩) [100] (by
      rw [Bool.eq_false_iff, Ne, (Jac.add_rep g (Jac.scale_rep g o [100]) (Jac.scale_rep g o [5])).isZero_iff, ← add_nsmul]
      have h := nsmul_inj_mod (x := gen2 (FpV adx)) (n := wordsVal [100] + wordsVal [5]) (m := 0)
      rw [Keys.order_gen2, zero_nsmul] at h
      rw [h]
      decide +kernel)
  exact ⟨W, hW, ha⟩

end Bls.Props
