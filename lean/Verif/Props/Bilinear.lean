import Verif.Proof.PairIff
import Verif.Proof.FpV

/-!
# C34: bilinearity of the pairing

The pairing of two points is the value of `calculate` on the list that `add_pair` makes of them, under any callback.
The hypotheses are the tests of the API: `isOnCurve` and `inCorrectSubgroup`.
-/

namespace Bls.Props
open Bls Pairing

variable {adx : Bool} {σ : Type}

/-- The tests a caller can make on a `g1` point.
Calls: `g1::isOnCurve` (src/g.cpp:292), `g1::inCorrectSubgroup` (src/g.cpp:276). -/
def Member1 (a : G1 (FpV adx)) : Prop := a.isOnCurve FpC.B = true ∧ a.inCorrectSubgroup = true

/-- The tests a caller can make on a `g2` point.
Calls: `g2::isOnCurve` (src/g.cpp:1013), `g2::inCorrectSubgroup` (src/g.cpp:994). -/
def Member2 (a : G2 (FpV adx)) : Prop := a.isOnCurve Fp2.B = true ∧ a.inCorrectSubgroup = true

/-- `e(a, b)` through the API; `none` would be undefined behaviour.
Calls: `add_pair`, `calculate` (src/pairing.cpp:180-200). -/
def pairing (a : G1 (FpV adx)) (b : G2 (FpV adx)) (y : Option (σ → σ)) (s : σ) : Option (Fp12 (FpV adx)) :=
  (calculate (addPair [] a b) y s).map Prod.fst

/-- C34: linearity in the first argument. -/
theorem C34_add_left (a a' : G1 (FpV adx)) (b : G2 (FpV adx)) (ha : Member1 a) (ha' : Member1 a') (hb : Member2 b)
    (y : Option (σ → σ)) (s : σ) :
    ∃ v v', pairing a b y s = some v ∧ pairing a' b y s = some v' ∧ pairing (a.add a') b y s = some (v * v') := by
  obtain ⟨P, hP, oP⟩ := valid1 ha
  obtain ⟨P', hP', oP'⟩ := valid1 ha'
  obtain ⟨Q, hQ, oQ⟩ := valid2 hb
  refine ⟨_, _, calc_eps hP hQ y s, calc_eps hP' hQ y s, ?_⟩
  rw [← eps_add_left oP oP' oQ]
  exact calc_eps (Jac.add_rep (goodCurve1 _) hP hP') hQ y s

/-- C34: linearity in the second argument. -/
theorem C34_add_right (a : G1 (FpV adx)) (b b' : G2 (FpV adx)) (ha : Member1 a) (hb : Member2 b) (hb' : Member2 b')
    (y : Option (σ → σ)) (s : σ) :
    ∃ v v', pairing a b y s = some v ∧ pairing a b' y s = some v' ∧ pairing a (b.add b') y s = some (v * v') := by
  obtain ⟨P, hP, oP⟩ := valid1 ha
  obtain ⟨Q, hQ, oQ⟩ := valid2 hb
  obtain ⟨Q', hQ', oQ'⟩ := valid2 hb'
  refine ⟨_, _, calc_eps hP hQ y s, calc_eps hP hQ' y s, ?_⟩
  rw [← eps_add_right oP oQ oQ']
  exact calc_eps hP (Jac.add_rep (goodCurve2 _) hQ hQ') y s

/-- C34: `e(m a, n b) = e(a, b)^(m n)` for scalars of any number of words. -/
theorem C34_scale (a : G1 (FpV adx)) (b : G2 (FpV adx)) (ha : Member1 a) (hb : Member2 b) (m n : List UInt64)
    (y : Option (σ → σ)) (s : σ) :
    ∃ v, pairing a b y s = some v ∧ pairing (a.scale m) (b.scale n) y s = some (v ^ (wordsVal m * wordsVal n)) := by
  obtain ⟨P, hP, oP⟩ := valid1 ha
  obtain ⟨Q, hQ, oQ⟩ := valid2 hb
  refine ⟨_, calc_eps hP hQ y s, ?_⟩
  rw [mul_comm, pow_mul, ← eps_smul_right oP oQ, ← eps_smul_left oP (smul_smul_zero oQ _)]
  exact calc_eps (Jac.scale_rep (goodCurve1 _) hP m) (Jac.scale_rep (goodCurve2 _) hQ n) y s

/-- C34: a point at infinity gives one. -/
theorem C34_infinity (a : G1 (FpV adx)) (b : G2 (FpV adx)) (h : a.isZero = true ∨ b.isZero = true)
    (y : Option (σ → σ)) (s : σ) : pairing a b y s = some 1 := by
  rw [pairing, addPair, if_neg (by rcases h with h | h <;> simp [h]), calculate_eq]
  rfl

/-- C34: the value depends on the points only, not on their Jacobian coordinates. -/
theorem C34_equal (a a' : G1 (FpV adx)) (b b' : G2 (FpV adx)) (ha : a.isOnCurve FpC.B = true)
    (ha' : a'.isOnCurve FpC.B = true) (hb : b.isOnCurve Fp2.B = true) (hb' : b'.isOnCurve Fp2.B = true)
    (h : a.equal a' = true) (h' : b.equal b' = true) (y : Option (σ → σ)) (s : σ) :
    pairing a b y s = pairing a' b' y s := by
  obtain ⟨P, hP⟩ := G1.onCurve_iff.1 ha
  obtain ⟨P', hP'⟩ := G1.onCurve_iff.1 ha'
  obtain ⟨Q, hQ⟩ := G2.onCurve_iff.1 hb
  obtain ⟨Q', hQ'⟩ := G2.onCurve_iff.1 hb'
  have e := (Jac.equal_iff hP hP').1 h
  have e' := (Jac.equal_iff hQ hQ').1 h'
  subst e e'
  exact (calc_eps hP hQ y s).trans (calc_eps hP' hQ' y s).symm

/-- C34: nondegeneracy. The pairing of two subgroup points is one exactly when one of them is the point at infinity. -/
theorem C34_nondegenerate (a : G1 (FpV adx)) (b : G2 (FpV adx)) (ha : Member1 a) (hb : Member2 b)
    (y : Option (σ → σ)) (s : σ) : pairing a b y s = some 1 ↔ a.isZero = true ∨ b.isZero = true := by
  obtain ⟨P, hP, oP⟩ := valid1 ha
  obtain ⟨Q, hQ, oQ⟩ := valid2 hb
  rw [pairing, calc_eps hP hQ, Option.some_inj, eps_eq_one_iff oP oQ, hP.isZero_iff, hQ.isZero_iff]

/-- C34: the value at the generators is the published one. With the theorems above this determines the pairing on both
subgroups. -/
theorem C34_generators (y : Option (σ → σ)) (s : σ) :
    pairing (G1.one : G1 (FpV adx)) G2.one y s = some (gtGen fun n => (n : FpV adx)) :=
  (calc_eps G1.one_rep G2.one_rep y s).trans (congrArg some (eps_gen _))

/-- The generators are valid and their pairing is not one. -/
theorem valid_one : Member1 (G1.one : G1 (FpV adx)) ∧ Member2 (G2.one : G2 (FpV adx)) :=
  ⟨⟨G1.onCurve_iff.2 ⟨_, G1.one_rep⟩, (one_in _).1⟩, ⟨G2.onCurve_iff.2 ⟨_, G2.one_rep⟩, (one_in _).2⟩⟩

example (y : Option (σ → σ)) (s : σ) : pairing (G1.one : G1 (FpV adx)) G2.one y s ≠ some 1 := by
  have h1 := Jac.isZero_false.2 (G1.one_rep (K := FpV adx)).1
  have h2 := Jac.isZero_false.2 (G2.one_rep (K := FpV adx)).1
  rw [Ne, C34_nondegenerate _ _ valid_one.1 valid_one.2, h1, h2]
  simp

/-- `e(2 G, H) = e(G, H)²` and `e(G, 2 H) = e(G, H)²`, `e(3 G, 5 H) = e(G, H)¹⁵`. -/
example (y : Option (σ → σ)) (s : σ) : ∃ v, pairing (G1.one : G1 (FpV adx)) G2.one y s = some v ∧
    pairing (G1.one.add G1.one : G1 (FpV adx)) G2.one y s = some (v * v) ∧
    pairing (G1.one : G1 (FpV adx)) (G2.one.add G2.one) y s = some (v * v) ∧
    pairing ((G1.one : G1 (FpV adx)).scale [3]) ((G2.one : G2 (FpV adx)).scale [5]) y s = some (v ^ 15) := by
  obtain ⟨v1, v2, a1, a2, a3⟩ := C34_add_left _ _ _ (valid_one (adx := adx)).1 valid_one.1 valid_one.2 y s
  obtain ⟨w1, w2, b1, b2, b3⟩ := C34_add_right _ _ _ (valid_one (adx := adx)).1 valid_one.2 valid_one.2 y s
  obtain ⟨u, c1, c2⟩ := C34_scale _ _ (valid_one (adx := adx)).1 valid_one.2 [3] [5] y s
  cases a1.symm.trans a2
  cases a1.symm.trans b1
  cases a1.symm.trans b2
  cases a1.symm.trans c1
  exact ⟨_, a1, a3, b3, c2⟩

/-- Infinity and the generator. -/
example (y : Option (σ → σ)) (s : σ) : pairing (Jac.zero : G1 (FpV adx)) G2.one y s = some 1 :=
  C34_infinity _ _ (.inl (Jac.isZero_iff.2 LawfulOps.zero_eq)) y s

/-- The generators and their coordinates after an addition and a subtraction of the generator. -/
example (y : Option (σ → σ)) (s : σ) : pairing (G1.one : G1 (FpV adx)) G2.one y s =
    pairing ((G1.one.add G1.one : G1 (FpV adx)).subtract G1.one) ((G2.one.add G2.one : G2 (FpV adx)).subtract G2.one) y s := by
  obtain ⟨P, hP⟩ : ∃ P, (G1.one : G1 (FpV adx)).Rep P := ⟨_, G1.one_rep⟩
  obtain ⟨Q, hQ⟩ : ∃ Q, (G2.one : G2 (FpV adx)).Rep Q := ⟨_, G2.one_rep⟩
  have h1 := Jac.sub_rep (goodCurve1 _) (Jac.add_rep (goodCurve1 _) hP hP) hP
  have h2 := Jac.sub_rep (goodCurve2 _) (Jac.add_rep (goodCurve2 _) hQ hQ) hQ
  exact C34_equal _ _ _ _ valid_one.1.1 (G1.onCurve_iff.2 ⟨_, h1⟩) valid_one.2.1 (G2.onCurve_iff.2 ⟨_, h2⟩)
    ((Jac.equal_iff hP h1).2 (add_sub_cancel_right _ _).symm) ((Jac.equal_iff hQ h2).2 (add_sub_cancel_right _ _).symm) y s

end Bls.Props
