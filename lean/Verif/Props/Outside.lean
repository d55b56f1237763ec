import Verif.Proof.PairAny
import Verif.Props.Bilinear

/-!
# C74, C75: the pairing of points of the curves that need not lie in the subgroups

`add_pair` and `calculate` do not test their arguments. `pairing`, `Member1` and `Member2` as in C34.
-/

namespace Bls.Props
open Bls Pairing
attribute [local irreducible] p q

variable {adx : Bool} {σ : Type}

/-- A pair of finite points, the second of order 13. -/
def Bad (a : G1 (FpV adx)) (b : G2 (FpV adx)) : Prop :=
  a.isZero = false ∧ b.isZero = false ∧ (b.scale [13]).isZero = true

theorem bad_iff {a : G1 (FpV adx)} {b : G2 (FpV adx)} {P : E1 (FpV adx)} {Q : E2 (FpV adx)} (hP : a.Rep P) (hQ : b.Rep Q) :
    Bad a b ↔ P ≠ 0 ∧ Q ≠ 0 ∧ 13 • Q = 0 := by
  have h1 : wordsVal [13] = 13 := by decide
  have h13 := (Jac.scale_rep (goodCurve2 (FpV adx)) hQ [13]).isZero_iff
  rw [h1] at h13
  rw [Bad, h13, ← Bool.not_eq_true, ← Bool.not_eq_true, hP.isZero_iff, hQ.isZero_iff]

/-! ## C74 -/

/-- The list that `add_pair` makes of given points.
Calls: src/pairing.cpp:192-200. -/
def pairList (l : List (G1 (FpV adx) × G2 (FpV adx))) : List (G1 (FpV adx) × G2 (FpV adx)) :=
  l.foldl (fun v ab => addPair v ab.1 ab.2) []

theorem pairList_val (l : List (G1 (FpV adx) × G2 (FpV adx)))
    (hl : ∀ ab ∈ l, ab.1.isOnCurve FpC.B = true ∧ ab.2.isOnCurve Fp2.B = true) : ∀ v : List (G1 (FpV adx) × G2 (FpV adx)),
    ∃ r : Fp12 (FpV adx), ((l.foldl (fun v ab => addPair v ab.1 ab.2) v).map fun pq => pairVal pq.1 pq.2).prod =
      (v.map fun pq => pairVal pq.1 pq.2).prod * r ∧ ((∃ ab ∈ l, Bad ab.1 ab.2) → r = 0) ∧
      ((¬∃ ab ∈ l, Bad ab.1 ab.2) → r ^ q = 1) := by
  induction l with
  | nil => exact fun v => ⟨1, (mul_one _).symm, fun ⟨_, h, _⟩ => absurd h List.not_mem_nil, fun _ => one_pow _⟩
  | cons ab l ih =>
    intro v
    obtain ⟨h1, h2⟩ := hl ab List.mem_cons_self
    obtain ⟨P, hP⟩ := G1.onCurve_iff.1 h1
    obtain ⟨Q, hQ⟩ := G2.onCurve_iff.1 h2
    obtain ⟨r, e, i1, i2⟩ := ih (fun x hx => hl x (List.mem_cons_of_mem _ hx)) (addPair v ab.1 ab.2)
    refine ⟨eps P Q * r, ?_, ?_, ?_⟩
    · rw [List.foldl_cons, e, addPair_eps hP hQ, mul_assoc]
    · rintro ⟨x, hx, hb⟩
      rcases List.mem_cons.1 hx with rfl | hx
      · rw [(eps_eq_zero_iff P Q).2 ((bad_iff hP hQ).1 hb), zero_mul]
      · rw [i1 ⟨x, hx, hb⟩, mul_zero]
    · intro h
      rw [mul_pow, i2 fun ⟨x, hx, hb⟩ => h ⟨x, List.mem_cons_of_mem _ hx, hb⟩,
        (eps_order_iff P Q).2 fun hb => h ⟨ab, List.mem_cons_self, (bad_iff hP hQ).2 hb⟩, mul_one]

/-- C74: for every list of pairs of points of the curves, in the subgroups or not, `calculate` is defined. Its value is zero
if some pair has finite points the second of which has order 13. Otherwise `isGtValid` accepts it. -/
theorem C74_list (l : List (G1 (FpV adx) × G2 (FpV adx)))
    (hl : ∀ ab ∈ l, ab.1.isOnCurve FpC.B = true ∧ ab.2.isOnCurve Fp2.B = true) (y : Option (σ → σ)) (s : σ) :
    ∃ v, (calculate (pairList l) y s).map Prod.fst = some v ∧
      ((∃ ab ∈ l, Bad ab.1 ab.2) → v = 0) ∧ ((¬∃ ab ∈ l, Bad ab.1 ab.2) → v.isGtValid = true) := by
  obtain ⟨r, e, h1, h2⟩ := pairList_val l hl []
  rw [List.map_nil, List.prod_nil, one_mul] at e
  refine ⟨r, ?_, h1, fun h => (isGtValid_iff _).2 (h2 h)⟩
  rw [calculate_eq, Option.map_some, pairList, e]

/-- The generators. -/
example (y : Option (σ → σ)) (s : σ) : ∃ v, (calculate (pairList [((G1.one : G1 (FpV adx)), (G2.one : G2 (FpV adx)))]) y s).map Prod.fst =
    some v ∧ v.isGtValid = true := by
  obtain ⟨v, e, -, h⟩ := C74_list [((G1.one : G1 (FpV adx)), (G2.one : G2 (FpV adx)))] (fun ab h => by
    obtain rfl := List.mem_singleton.1 h
    exact ⟨valid_one.1.1, valid_one.2.1⟩) y s
  refine ⟨v, e, h ?_⟩
  rintro ⟨ab, h, hb⟩
  obtain rfl := List.mem_singleton.1 h
  obtain ⟨Q, hQ, oQ⟩ := valid2 (valid_one (adx := adx)).2
  obtain ⟨P, hP, -⟩ := valid1 (valid_one (adx := adx)).1
  exact not13 oQ ((bad_iff hP hQ).1 hb).2

/-- C74: the value of one pairing is zero in that case only. -/
theorem C74_zero_iff (a : G1 (FpV adx)) (b : G2 (FpV adx)) (ha : a.isOnCurve FpC.B = true) (hb : b.isOnCurve Fp2.B = true)
    (y : Option (σ → σ)) (s : σ) :
    ∃ v, pairing a b y s = some v ∧ (v = 0 ↔ Bad a b) ∧ (v.isGtValid = true ↔ ¬Bad a b) := by
  obtain ⟨P, hP⟩ := G1.onCurve_iff.1 ha
  obtain ⟨Q, hQ⟩ := G2.onCurve_iff.1 hb
  refine ⟨_, calc_eps hP hQ y s, ?_, ?_⟩
  · rw [bad_iff hP hQ, eps_eq_zero_iff]
  · rw [bad_iff hP hQ, isGtValid_iff, eps_order_iff]

/-- C74: such points exist, so the value of `calculate` can lie outside the target group. -/
theorem C74_outside : ∃ b : G2 (FpV adx), b.isOnCurve Fp2.B = true ∧
    ∀ a : G1 (FpV adx), a.isOnCurve FpC.B = true → a.isZero = false → ∀ (y : Option (σ → σ)) (s : σ),
      pairing a b y s = some 0 := by
  obtain ⟨b, hb⟩ := Jac.exists_rep (pt2 (FpV adx) s13x s13y (by decide +kernel))
  refine ⟨b, G2.onCurve_iff.2 ⟨_, hb⟩, fun a ha h0 y s => ?_⟩
  obtain ⟨P, hP⟩ := G1.onCurve_iff.1 ha
  have hP0 : P ≠ 0 := fun e => by
    rw [hP.isZero_iff.2 e] at h0
    exact Bool.noConfusion h0
  exact (calc_eps hP hb y s).trans (congrArg some ((eps_eq_zero_iff _ _).2 ⟨hP0, pt2_ne_zero _, s13_smul _⟩))

/-- The case of a value zero arises. -/
example : ∃ b : G2 (FpV adx), Bad (G1.one : G1 (FpV adx)) b := by
  obtain ⟨b, hb, h⟩ := C74_outside (adx := adx) (σ := Unit)
  have h0 : (G1.one : G1 (FpV adx)).isZero = false := by
    rw [Bool.eq_false_iff, Ne, G1.one_rep.isZero_iff]; exact gen1_ne_zero _
  obtain ⟨v, e, hv, -⟩ := C74_zero_iff (G1.one : G1 (FpV adx)) b valid_one.1.1 hb none ()
  rw [h _ valid_one.1.1 h0 none ()] at e
  exact ⟨b, hv.1 (Option.some.inj e).symm⟩

/-- Hypotheses met: the generators make a list of one pair that is not bad. -/
example : (∀ ab ∈ [((G1.one : G1 (FpV adx)), (G2.one : G2 (FpV adx)))],
    ab.1.isOnCurve FpC.B = true ∧ ab.2.isOnCurve Fp2.B = true) ∧ ¬Bad (G1.one : G1 (FpV adx)) (G2.one : G2 (FpV adx)) := by
  refine ⟨fun ab h => ?_, fun h => ?_⟩
  · obtain rfl := List.mem_singleton.1 h
    exact ⟨valid_one.1.1, valid_one.2.1⟩
  · obtain ⟨Q, hQ, oQ⟩ := valid2 (valid_one (adx := adx)).2
    obtain ⟨P, hP, -⟩ := valid1 (valid_one (adx := adx)).1
    exact not13 oQ ((bad_iff hP hQ).1 h).2

/-! ## C75 -/

/-- C75: with a second argument in the subgroup the pairing is linear in the first one on the whole curve, and has its values
in the target group. -/
theorem C75_add (a a' : G1 (FpV adx)) (b : G2 (FpV adx)) (ha : a.isOnCurve FpC.B = true) (ha' : a'.isOnCurve FpC.B = true)
    (hb : Member2 b) (y : Option (σ → σ)) (s : σ) :
    ∃ v v', pairing a b y s = some v ∧ pairing a' b y s = some v' ∧ pairing (a.add a') b y s = some (v * v') ∧
      v.isGtValid = true := by
  obtain ⟨P, hP⟩ := G1.onCurve_iff.1 ha
  obtain ⟨P', hP'⟩ := G1.onCurve_iff.1 ha'
  obtain ⟨Q, hQ, oQ⟩ := valid2 hb
  refine ⟨_, _, calc_eps hP hQ y s, calc_eps hP' hQ y s, ?_, (isGtValid_iff _).2 (eps_pow_q P oQ)⟩
  rw [← eps_add_any P P' oQ]
  exact calc_eps (Jac.add_rep (goodCurve1 _) hP hP') hQ y s

/-- C75: the same for multiples. -/
theorem C75_scale (a : G1 (FpV adx)) (b : G2 (FpV adx)) (ha : a.isOnCurve FpC.B = true) (hb : Member2 b) (n : List UInt64)
    (y : Option (σ → σ)) (s : σ) :
    ∃ v, pairing a b y s = some v ∧ pairing (a.scale n) b y s = some (v ^ wordsVal n) := by
  obtain ⟨P, hP⟩ := G1.onCurve_iff.1 ha
  obtain ⟨Q, hQ, oQ⟩ := valid2 hb
  refine ⟨_, calc_eps hP hQ y s, ?_⟩
  rw [← eps_smul_any P oQ]
  exact calc_eps (Jac.scale_rep (goodCurve1 _) hP n) hQ y s

/-- C75: clearing the cofactor of the first argument raises the value to the power `1 - z`. The value is one exactly if the
second argument is infinity or the first one is infinity after its cofactor is cleared. -/
theorem C75_clear (a : G1 (FpV adx)) (b : G2 (FpV adx)) (ha : a.isOnCurve FpC.B = true) (hb : Member2 b)
    (y : Option (σ → σ)) (s : σ) :
    ∃ v, pairing a b y s = some v ∧ pairing a.clearCofactor b y s = some (v ^ 0xd201000000010001) ∧
      (v = 1 ↔ a.clearCofactor.isZero = true ∨ b.isZero = true) := by
  obtain ⟨P, hP⟩ := G1.onCurve_iff.1 ha
  obtain ⟨Q, hQ, oQ⟩ := valid2 hb
  have hc := clear_rep_eff.1 _ _ hP
  refine ⟨_, calc_eps hP hQ y s, ?_, ?_⟩
  · have := calc_eps hc hQ y s
    rw [eps_smul_any P oQ] at this
    exact this
  · rw [eps_one_any P oQ, hc.isZero_iff, hQ.isZero_iff]

/-- C75: adding a point that disappears when the cofactor is cleared does not change the pairing with any second argument in
the subgroup. -/
theorem C75_torsion (a t : G1 (FpV adx)) (b : G2 (FpV adx)) (ha : a.isOnCurve FpC.B = true) (ht : t.isOnCurve FpC.B = true)
    (h0 : t.clearCofactor.isZero = true) (hb : Member2 b) (y : Option (σ → σ)) (s : σ) :
    pairing (a.add t) b y s = pairing a b y s := by
  obtain ⟨v, v', e1, e2, e3, -⟩ := C75_add a t b ha ht hb y s
  obtain ⟨w, f1, -, f2⟩ := C75_clear t b ht hb y s
  rw [Option.some.inj (e2.symm.trans f1), f2.2 (.inl h0), mul_one] at e3
  rw [e3, e1]

/-- A point of order three disappears. -/
example : ∃ t : G1 (FpV adx), t.isOnCurve FpC.B = true ∧ t.isZero = false ∧ ∀ (y : Option (σ → σ)) (s : σ),
    pairing ((G1.one : G1 (FpV adx)).add t) (G2.one : G2 (FpV adx)) y s = pairing (G1.one : G1 (FpV adx)) (G2.one : G2 (FpV adx)) y s := by
  have hn : (curve (4 : FpV adx)).Nonsingular 0 2 := (goodCurve1 (FpV adx)).nonsingular (by ring)
  obtain ⟨t, ht⟩ := Jac.exists_rep (WeierstrassCurve.Affine.Point.some 0 2 hn)
  have h3 : 3 • WeierstrassCurve.Affine.Point.some 0 2 hn = 0 := XZero.three (P := .some 0 2 hn) rfl
  have hne : WeierstrassCurve.Affine.Point.some 0 2 hn ≠ 0 := WeierstrassCurve.Affine.Point.some_ne_zero hn
  generalize WeierstrassCurve.Affine.Point.some 0 2 hn = T at ht h3 hne
  have hc : t.isOnCurve FpC.B = true := G1.onCurve_iff.2 ⟨_, ht⟩
  have hT : (G1.clearCofactor t).isZero = true := by
    rw [(clear_rep_eff.1 _ _ ht).isZero_iff, show hEff1 = 3 * (hEff1 / 3) by decide +kernel, mul_nsmul, h3, nsmul_zero]
  refine ⟨t, hc, ?_, fun y s => C75_torsion G1.one t G2.one valid_one.1.1 hc hT valid_one.2 y s⟩
  rw [Bool.eq_false_iff, Ne, ht.isZero_iff]
  exact hne

/-- C75: such points exist, so points of the curve that the subgroup test rejects have the same pairings as a member. Only
the test `inCorrectSubgroup` tells them apart. -/
theorem C75_example (a : G1 (FpV adx)) (ha : Member1 a) : ∃ a' : G1 (FpV adx), a'.isOnCurve FpC.B = true ∧
    a'.inCorrectSubgroup = false ∧ a'.equal a = false ∧
    ∀ b : G2 (FpV adx), Member2 b → ∀ (y : Option (σ → σ)) (s : σ), pairing a' b y s = pairing a b y s := by
  have hn : (curve (4 : FpV adx)).Nonsingular 0 2 := (goodCurve1 (FpV adx)).nonsingular (by ring)
  obtain ⟨t, ht⟩ := Jac.exists_rep (WeierstrassCurve.Affine.Point.some 0 2 hn)
  have h3 : 3 • WeierstrassCurve.Affine.Point.some 0 2 hn = 0 := XZero.three (P := .some 0 2 hn) rfl
  have hne : WeierstrassCurve.Affine.Point.some 0 2 hn ≠ 0 := WeierstrassCurve.Affine.Point.some_ne_zero hn
  generalize WeierstrassCurve.Affine.Point.some 0 2 hn = T at ht h3 hne
  obtain ⟨P, hP, oP⟩ := valid1 ha
  have hs := Jac.add_rep (goodCurve1 (FpV adx)) hP ht
  have hT : (G1.clearCofactor t).isZero = true := by
    rw [(clear_rep_eff.1 _ _ ht).isZero_iff, show hEff1 = 3 * (hEff1 / 3) by decide +kernel, mul_nsmul, h3, nsmul_zero]
  refine ⟨a.add t, G1.onCurve_iff.2 ⟨_, hs⟩, ?_, ?_, fun b hb y s =>
    C75_torsion a t b ha.1 (G1.onCurve_iff.2 ⟨_, ht⟩) hT hb y s⟩
  · rw [← Bool.not_eq_true, G1.inCorrectSubgroup_iff hs, nsmul_add, oP, zero_add]
    intro e
    have := gcd_smul e h3
    rw [show Nat.gcd q 3 = 1 by decide +kernel, one_smul] at this
    exact hne this
  · rw [← Bool.not_eq_true, Jac.equal_iff hs hP]
    exact fun e => hne (add_eq_left.1 e)

/-- For the point outside the subgroup that `C75_example` gives. -/
example : ∃ a' : G1 (FpV adx), a'.isOnCurve FpC.B = true ∧ a'.inCorrectSubgroup = false ∧
    (∃ v, pairing (a'.add a') (G2.one : G2 (FpV adx)) none () = some (v * v) ∧ v.isGtValid = true) ∧
    (∃ v, pairing a' (G2.one : G2 (FpV adx)) none () = some v ∧
      pairing (a'.scale [0, 1]) (G2.one : G2 (FpV adx)) none () = some (v ^ 2 ^ 64)) ∧
    ∃ v, pairing a' (G2.one : G2 (FpV adx)) none () = some v ∧
      pairing a'.clearCofactor (G2.one : G2 (FpV adx)) none () = some (v ^ 0xd201000000010001) := by
  obtain ⟨a', h1, h2, -, -⟩ := C75_example (adx := adx) (σ := Unit) G1.one valid_one.1
  refine ⟨a', h1, h2, ?_, ?_, ?_⟩
  · obtain ⟨v, v', e, e', h3, h4⟩ := C75_add a' a' (G2.one : G2 (FpV adx)) h1 h1 valid_one.2 none ()
    obtain rfl := Option.some.inj (e.symm.trans e')
    exact ⟨v, h3, h4⟩
  · obtain ⟨v, e, e'⟩ := C75_scale a' (G2.one : G2 (FpV adx)) h1 valid_one.2 [0, 1] none ()
    rw [show wordsVal [0, 1] = 2 ^ 64 by decide +kernel] at e'
    exact ⟨v, e, e'⟩
  · obtain ⟨v, e, e', -⟩ := C75_clear a' (G2.one : G2 (FpV adx)) h1 valid_one.2 none ()
    exact ⟨v, e, e'⟩

/-- Hypotheses met by C75: the generator of the first group is on the curve, that of the second is a member, and
`C75_example` gives points outside the subgroup. -/
example : (G1.one : G1 (FpV adx)).isOnCurve FpC.B = true ∧ Member2 (G2.one : G2 (FpV adx)) := ⟨valid_one.1.1, valid_one.2⟩

end Bls.Props
