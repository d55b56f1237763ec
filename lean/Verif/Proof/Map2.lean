import Verif.Proof.Iso1
import Verif.Proof.Map1

/-! The SWU map and the 3-isogeny of the second group. -/

namespace Bls
open Rfc PolyList

section
variable {K : Type} [Field K] [FpOps K] [LawfulFp K] [DecidableEq K]

/-- An element of `F_p²` as a pair of residues. -/
abbrev NatP2 := Fp2 NatP

def toN2 (c : ℕ × ℕ) : NatP2 := ⟨c.1, c.2⟩

abbrev castN2 (K : Type) [Field K] : NatP2 → Fp2 K := Fp2.map (NatP.cast K)

theorem pair_cast (c : ℕ × ℕ) : (pair c : Fp2 K) = castN2 K (toN2 c) := rfl

theorem polyVal_pair (x : Fp2 K) : ∀ cs : List (ℕ × ℕ), polyVal (cs.map pair) x = ev (castN2 K) x (cs.map toN2)
  | [] => rfl
  | c :: cs => by
    rw [List.map_cons, polyVal, polyVal_pair x cs]; rfl

def unmont2 (w : Fp × Fp) : ℕ × ℕ := (unmont w.1, unmont w.2)

theorem isoPoly2 (ws : List (Fp × Fp)) (cs : List (ℕ × ℕ)) (w : Fp × Fp) (t : List (Fp × Fp)) (hw : ws = w :: t)
    (hlt : (w :: t).all (fun c => Nat.blt c.1.val p && Nat.blt c.2.val p) = true)
    (h : eqL (((ws.map unmont2).map toN2).reverse) (cs.map toN2) = true) (x : Fp2 K) :
    G2.isoPoly ws x = polyVal (cs.map pair) x := by
  have hc : ∀ c ∈ w :: t, (⟨FpOps.const c.1, FpOps.const c.2⟩ : Fp2 K) = castN2 K (toN2 (unmont2 c)) := fun c hc => by
    have := List.all_eq_true.1 hlt c hc
    rw [Bool.and_eq_true] at this
    rw [const_nat c.1 (Nat.blt_eq ▸ this.1), const_nat c.2 (Nat.blt_eq ▸ this.2)]
    rfl
  rw [polyVal_pair, ← ev_eq (f := castN2 K) x _ _ h, hw, G2.isoPoly]
  rw [List.tail_cons, List.headD_cons, hc w List.mem_cons_self, List.map_cons, List.map_cons]
  refine Eq.trans ?_ (horner_cons (f := castN2 K) x (toN2 (unmont2 w)) ((t.map unmont2).map toN2))
  congr 1
  rw [List.map_map, List.map_map]
  exact List.map_congr_left fun c h => hc c (List.mem_cons_of_mem _ h)

theorem isoPoly2_xNum (x : Fp2 K) : G2.isoPoly G2.isoW0 x = polyVal (xNum2.map pair) x :=
  isoPoly2 _ _ _ _ (by rw [G2.isoW0]) (by decide +kernel) (by decide +kernel) x

theorem isoPoly2_xDen (x : Fp2 K) : G2.isoPoly G2.isoW1.tail x = polyVal (xDen2.map pair) x :=
  isoPoly2 _ _ _ _ (by rw [G2.isoW1, List.tail_cons]) (by decide +kernel) (by decide +kernel) x

theorem isoPoly2_yNum (x : Fp2 K) : G2.isoPoly G2.isoW2 x = polyVal (yNum2.map pair) x :=
  isoPoly2 _ _ _ _ (by rw [G2.isoW2]) (by decide +kernel) (by decide +kernel) x

theorem isoPoly2_yDen (x : Fp2 K) : G2.isoPoly G2.isoW3 x = polyVal (yDen2.map pair) x :=
  isoPoly2 _ _ _ _ (by rw [G2.isoW3]) (by decide +kernel) (by decide +kernel) x

/-- The kernel polynomial: abscissa `-6 + 6u`. -/
def kP : List NatP2 := [⟨(6 : ℕ), Nat.sub p 6⟩, ⟨(1 : ℕ), (0 : ℕ)⟩]
def kP2 : List NatP2 := pmul kP kP
def kP3 : List NatP2 := pmul kP2 kP

theorem xDen2_eq : eqL (xDen2.map toN2) kP2 = true := by decide +kernel
theorem yDen2_eq : eqL (yDen2.map toN2) kP3 = true := by decide +kernel

def xNumN2 : List NatP2 := xNum2.map toN2
def yNumN2 : List NatP2 := yNum2.map toN2
def cubicN2 : List NatP2 := [⟨(1012 : ℕ), (1012 : ℕ)⟩, ⟨(0 : ℕ), (240 : ℕ)⟩, ⟨(0 : ℕ), (0 : ℕ)⟩, ⟨(1 : ℕ), (0 : ℕ)⟩]
def fourN2 : List NatP2 := [⟨(4 : ℕ), (4 : ℕ)⟩]

theorem iso2_eq : eqL (pmul cubicN2 (pmul yNumN2 yNumN2))
    (addL (pmul xNumN2 (pmul xNumN2 xNumN2)) (pmul fourN2 (pmul kP3 kP3))) = true := by
  decide +kernel

/-- Value of the kernel polynomial. -/
def ker2 (x : Fp2 K) : Fp2 K := ev (castN2 K) x kP

theorem xDen2_val (x : Fp2 K) : polyVal (xDen2.map pair) x = ker2 x ^ 2 := by
  rw [polyVal_pair, ev_eq (f := castN2 K) x _ _ xDen2_eq, kP2, ev_pmul, ker2, sq]

theorem yDen2_val (x : Fp2 K) : polyVal (yDen2.map pair) x = ker2 x ^ 3 := by
  rw [polyVal_pair, ev_eq (f := castN2 K) x _ _ yDen2_eq, kP3, ev_pmul, kP2, ev_pmul, ker2]; ring

theorem castN2_mk (a b : ℕ) : castN2 K ⟨a, b⟩ = (⟨(a : K), (b : K)⟩ : Fp2 K) := rfl

theorem castN2_ofNat (a b : ℕ) [a.AtLeastTwo] [b.AtLeastTwo] :
    (⟨((OfNat.ofNat a : ℕ) : K), ((OfNat.ofNat b : ℕ) : K)⟩ : Fp2 K) = ⟨OfNat.ofNat a, OfNat.ofNat b⟩ := by
  rw [Nat.cast_ofNat, Nat.cast_ofNat]

theorem mk_zero : (⟨((0 : ℕ) : K), ((0 : ℕ) : K)⟩ : Fp2 K) = 0 := by rw [Nat.cast_zero]; rfl
theorem mk_one : (⟨((1 : ℕ) : K), ((0 : ℕ) : K)⟩ : Fp2 K) = 1 := by rw [Nat.cast_zero, Nat.cast_one]; rfl

theorem cubic2_val (x : Fp2 K) : ev (castN2 K) x cubicN2 = cubic (⟨0, 240⟩ : Fp2 K) ⟨1012, 1012⟩ x := by
  simp only [cubicN2, ev, castN2_mk]
  rw [mk_zero, mk_one, castN2_ofNat, Nat.cast_zero, Nat.cast_ofNat, cubic]; ring

theorem four2_val (x : Fp2 K) : ev (castN2 K) x fourN2 = 4 * Fp2.xi := by
  simp only [fourN2, ev, castN2_mk]
  rw [mul_zero, add_zero, four_xi]; rfl

theorem iso2_val (x : Fp2 K) : cubic (⟨0, 240⟩ : Fp2 K) ⟨1012, 1012⟩ x * polyVal (yNum2.map pair) x ^ 2 =
    polyVal (xNum2.map pair) x ^ 3 + 4 * Fp2.xi * ker2 x ^ 6 := by
  have h := ev_eq (f := castN2 K) x _ _ iso2_eq
  rw [ev_pmul, ev_pmul, ev_add, ev_pmul, ev_pmul, ev_pmul, ev_pmul, kP3, ev_pmul, kP2, ev_pmul, cubic2_val,
    four2_val, ← ker2] at h
  rw [polyVal_pair, polyVal_pair]
  change _ * ev (castN2 K) x yNumN2 ^ 2 = ev (castN2 K) x xNumN2 ^ 3 + _
  linear_combination h

attribute [local irreducible] p

theorem const2_is (c d : Fp) (n : ℕ × ℕ) (hc : c.val < p) (hd : d.val < p) (e : (unmont c, unmont d) = n) :
    (⟨FpOps.const c, FpOps.const d⟩ : Fp2 K) = castN2 K (toN2 n) := by
  rw [const_nat c hc, const_nat d hd, ← e]; rfl

/-- `zInv` of the second group. -/
def zInv2 : ℕ × ℕ := (3201927644177333914734231860588723325245506255951206308265646508899225320392670291554150103303212531230315418047830, 2401445733133000436050673895441542493934129691963404731199234881674418990294502718665612577477409398422736563535872)
/-- `minusBOverA` of the second group. -/
def mBA2 : ℕ × ℕ := (1267429692486861341248966778149702982909679559647352497021818409772610022655431990406851082557521626945333186310595, 2734979862734806052168823047586201173647203260291655388310239726351421627835405874035836546571494037092561086249192)
/-- Square root of the exceptional value. -/
def exc2 : ℕ × ℕ := (3611395798403580372189180981549434777847917790633063236702417299179272465463714843962369288472002469087378085294992, 423613093348586218576377851437437729690830432842722856441196780662664494552025968214749014884639894158037286276385)
/-- `Z` of the second group. -/
def zN2 : ℕ × ℕ := (Nat.sub p 2, Nat.sub p 1)

theorem neg_natCast {n : ℕ} (h : n ≤ p) : ((p - n : ℕ) : K) = -(n : K) := by
  rw [Nat.cast_sub h, (IsFp.natCast_eq_zero_iff (K := K) (a := p)).2 (Nat.mod_self p), zero_sub]

theorem zN2_eq : castN2 K (toN2 zN2) = ⟨-2, -1⟩ := by
  have h2 : 2 ≤ p := p_prime.two_le
  refine Fp2.ext ?_ ?_
  · exact (neg_natCast h2).trans (by rw [Nat.cast_ofNat])
  · exact (neg_natCast (by omega)).trans (by rw [Nat.cast_one])

theorem z2_eq : (G2.swuParams : SwuParams (Fp2 K)).z = ⟨-2, -1⟩ :=
  (const2_is _ _ zN2 (by decide +kernel) (by decide +kernel) (by decide +kernel)).trans zN2_eq
theorem zInv2_eq : (G2.swuParams : SwuParams (Fp2 K)).zInv = castN2 K (toN2 zInv2) :=
  const2_is _ _ zInv2 (by decide +kernel) (by decide +kernel) (by decide +kernel)
theorem a2_eq : (G2.swuParams : SwuParams (Fp2 K)).a = ⟨0, 240⟩ :=
  (const2_is _ _ (0, 240) (by decide +kernel) (by decide +kernel) (by decide +kernel)).trans
    (by rw [toN2, castN2_mk, Nat.cast_zero, Nat.cast_ofNat])
theorem b2_eq : (G2.swuParams : SwuParams (Fp2 K)).b = ⟨1012, 1012⟩ :=
  (const2_is _ _ (1012, 1012) (by decide +kernel) (by decide +kernel) (by decide +kernel)).trans
    (by rw [toN2, castN2_mk, Nat.cast_ofNat])
theorem mBA2_eq : (G2.swuParams : SwuParams (Fp2 K)).minusBOverA = castN2 K (toN2 mBA2) :=
  const2_is _ _ mBA2 (by decide +kernel) (by decide +kernel) (by decide +kernel)

theorem N2eq {x y : NatP2} (h : Ops.equal x y = true) : castN2 K x = castN2 K y := by
  rwa [← OpsHom.h_equal (f := castN2 K), LawfulOps.equal_iff] at h

theorem N2mul (x y : NatP2) : castN2 K (Ops.mul x y) = castN2 K x * castN2 K y := by
  rw [OpsHom.h_mul (f := castN2 K), LawfulOps.mul_eq]
theorem N2add (x y : NatP2) : castN2 K (Ops.add x y) = castN2 K x + castN2 K y := by
  rw [OpsHom.h_add (f := castN2 K), LawfulOps.add_eq]
theorem N2neg (x : NatP2) : castN2 K (Ops.neg x) = -castN2 K x := by
  rw [OpsHom.h_neg (f := castN2 K), LawfulOps.neg_eq]

/-- `x³ + A x + B` on residues. -/
def cubicNat (x : NatP2) : NatP2 := Ops.add (Ops.add (Ops.mul (Ops.mul x x) x) (Ops.mul (toN2 (0, 240)) x)) (toN2 (1012, 1012))

theorem cubicNat_cast (x : NatP2) : castN2 K (cubicNat x) = cubic (⟨0, 240⟩ : Fp2 K) ⟨1012, 1012⟩ (castN2 K x) := by
  rw [cubicNat, N2add, N2add, N2mul, N2mul, N2mul, toN2, toN2, castN2_mk, castN2_mk, cubic, Nat.cast_zero,
    Nat.cast_ofNat, Nat.cast_ofNat]
  ring

theorem ker2_eq (x : Fp2 K) : ker2 x = x - castN2 K ⟨Nat.sub p 6, (6 : ℕ)⟩ := by
  have h6 : 6 ≤ p := by unfold p; decide +kernel
  have : castN2 K ⟨(6 : ℕ), Nat.sub p 6⟩ = -castN2 K ⟨Nat.sub p 6, (6 : ℕ)⟩ := by
    rw [← N2neg]; exact N2eq (by unfold p; decide +kernel)
  simp only [ker2, kP, ev]
  rw [this, show castN2 K ⟨(1 : ℕ), (0 : ℕ)⟩ = 1 from (castN2_mk 1 0).trans mk_one]
  ring

/-- The curve `y² = x³ + A x + B` has no point of order two. -/
theorem cubic2_ne_zero (x : Fp2 K) : cubic (⟨0, 240⟩ : Fp2 K) ⟨1012, 1012⟩ x ≠ 0 := by
  intro h0
  by_cases hk : ker2 x = 0
  · rw [ker2_eq, sub_eq_zero] at hk
    rw [hk, ← cubicNat_cast] at h0
    have h1 : Ops.isZero (cubicNat ⟨Nat.sub p 6, (6 : ℕ)⟩) = false := by unfold p; decide +kernel
    rw [← OpsHom.h_isZero (f := castN2 K), Bool.eq_false_iff, Ne, LawfulOps.isZero_iff] at h1
    exact h1 h0
  · have h := iso2_val x
    rw [h0, zero_mul] at h
    have h32 : ((32 : ℕ) : K) ≠ 0 := natCast_ne_zero (by unfold p; decide +kernel)
    have hc : (polyVal (xNum2.map pair) x / ker2 x ^ 2) ^ 3 = -(4 * Fp2.xi) := by
      have : polyVal (xNum2.map pair) x ^ 3 = -(4 * Fp2.xi) * (ker2 x ^ 2) ^ 3 := by linear_combination -h
      rw [div_pow, this, mul_div_assoc, div_self (pow_ne_zero _ (pow_ne_zero _ hk)), mul_one]
    refine not_cube (n := 32) (by unfold p; decide +kernel) h32 (polyVal (xNum2.map pair) x / ker2 x ^ 2).norm ?_
    rw [← Fp2.norm_pow, hc, four_xi, Fp2.norm, Fp2.neg_c0, Fp2.neg_c1]
    change -((4 : ℕ) : K) * -((4 : ℕ) : K) + -((4 : ℕ) : K) * -((4 : ℕ) : K) = _
    norm_num

omit [DecidableEq K] in
theorem nonsquare_of_norm {x : Fp2 K} (h : ¬ IsSquare x.norm) : ¬ IsSquare x := by
  rintro ⟨r, rfl⟩
  exact h ⟨r.norm, by rw [Fp2.norm_mul]⟩

variable (K) in
theorem swuGood2 : SwuGood (G2.swuParams : SwuParams (Fp2 K)) ⟨0, 240⟩ ⟨1012, 1012⟩ ⟨-2, -1⟩ where
  z := z2_eq
  a := a2_eq
  b := b2_eq
  zInv := by
    have h1 : castN2 K ⟨(1 : ℕ), (0 : ℕ)⟩ = 1 := (castN2_mk 1 0).trans mk_one
    rw [zInv2_eq, ← zN2_eq, ← N2mul, ← h1, ← N2neg]
    exact N2eq (by unfold zN2 p; decide +kernel)
  minusBOverA := by
    have hA : (⟨0, 240⟩ : Fp2 K) = castN2 K (toN2 (0, 240)) := by rw [toN2, castN2_mk, Nat.cast_zero, Nat.cast_ofNat]
    have hB : (⟨1012, 1012⟩ : Fp2 K) = castN2 K (toN2 (1012, 1012)) := by rw [toN2, castN2_mk, Nat.cast_ofNat]
    rw [mBA2_eq, hA, hB, ← N2mul, ← N2neg]
    exact N2eq (by unfold mBA2; decide +kernel)
  a0 := by
    intro h
    have h1 : (240 : K) = 0 := congrArg Fp2.c1 h
    have : ((240 : ℕ) : K) ≠ 0 := natCast_ne_zero (by unfold p; decide +kernel)
    rw [Nat.cast_ofNat] at this
    exact this h1
  nonsquare := by
    apply nonsquare_of_norm
    have h5 : Fp2.norm (⟨-2, -1⟩ : Fp2 K) = ((5 : ℕ) : K) := by
      simp only [Fp2.norm]; norm_num
    rw [h5]
    exact nat_nonsquare (by unfold p; decide +kernel) (natCast_ne_zero (by unfold p; decide +kernel))
  exceptional := by
    rw [zInv2_eq, mBA2_eq, ← N2mul, ← cubicNat_cast]
    refine ⟨castN2 K (toN2 exc2), ?_⟩
    rw [← N2mul]
    exact N2eq (by decide +kernel)
  root := cubic2_ne_zero

/-- The SWU map of the second group is the map of RFC 9380. -/
theorem swu2 (e : Fp2 K) : IsSswu (⟨0, 240⟩ : Fp2 K) ⟨1012, 1012⟩ ⟨-2, -1⟩ Odd2 e (G2.swuMapG2 e).1 (G2.swuMapG2 e).2 :=
  swuMap_spec (swuGood2 K) (swuFns2 K) e

theorem jac_of_fractions {F : Type} [Field F] {y a b c d : F} (hD : c ≠ 0) (hD' : d ≠ 0) :
    d * c ≠ 0 ∧ a * d * (d * c) = a / c * (d * c) ^ 2 ∧
      y * b * c * ((d * c) * (d * c)) = y * (b / d) * (d * c) ^ 3 :=
  ⟨mul_ne_zero hD' hD, by field_simp, by field_simp⟩

/-- The isogeny map returns Jacobian coordinates of the image, including the kernel. -/
theorem iso2 {x y : Fp2 K} (z : Fp2 K) (hy : y ^ 2 = cubic (⟨0, 240⟩ : Fp2 K) ⟨1012, 1012⟩ x) :
    ∃ P : E2 K, IsIso (xNum2.map pair) (xDen2.map pair) (yNum2.map pair) (yDen2.map pair) x y P ∧
      (G2.isogenyMap ⟨x, y, z⟩ : G2 K).Rep P := by
  have e : G2.isogenyMap ⟨x, y, z⟩ = (⟨polyVal (xNum2.map pair) x * polyVal (yDen2.map pair) x *
        (polyVal (yDen2.map pair) x * polyVal (xDen2.map pair) x),
      y * polyVal (yNum2.map pair) x * polyVal (xDen2.map pair) x *
        ((polyVal (yDen2.map pair) x * polyVal (xDen2.map pair) x) * (polyVal (yDen2.map pair) x * polyVal (xDen2.map pair) x)),
      polyVal (yDen2.map pair) x * polyVal (xDen2.map pair) x⟩ : G2 K) := by
    rw [G2.isogenyMap]
    simp only [isoPoly2_xNum, isoPoly2_xDen, isoPoly2_yNum, isoPoly2_yDen, Fp2.mul_eq, Fp2.sqr_eq]
  rw [e]
  by_cases hk : ker2 x = 0
  · have hD : polyVal (xDen2.map pair) x = 0 := by rw [xDen2_val, hk]; exact zero_pow (by decide)
    refine ⟨0, Or.inl ⟨Or.inl hD, rfl⟩, ?_⟩
    change polyVal (yDen2.map pair) x * polyVal (xDen2.map pair) x = 0
    rw [hD, mul_zero]
  have hD : polyVal (xDen2.map pair) x ≠ 0 := by rw [xDen2_val]; exact pow_ne_zero _ hk
  have hD' : polyVal (yDen2.map pair) x ≠ 0 := by rw [yDen2_val]; exact pow_ne_zero _ hk
  have heq : (y * (polyVal (yNum2.map pair) x / polyVal (yDen2.map pair) x)) ^ 2 =
      (polyVal (xNum2.map pair) x / polyVal (xDen2.map pair) x) ^ 3 + 4 * Fp2.xi := by
    have h := iso2_val x
    rw [xDen2_val, yDen2_val, mul_pow, hy, div_pow, div_pow]
    generalize cubic (⟨0, 240⟩ : Fp2 K) ⟨1012, 1012⟩ x = g at h ⊢
    generalize polyVal (xNum2.map pair) x = a at h ⊢
    generalize polyVal (yNum2.map pair) x = b at h ⊢
    generalize ker2 x = k at h hk ⊢
    generalize (4 * Fp2.xi : Fp2 K) = c at h ⊢
    field_simp
    linear_combination h
  have hns := (goodCurve2 K).nonsingular heq
  refine ⟨.some _ _ hns, Or.inr ⟨hD, hD', hns, rfl⟩, ?_⟩
  exact jac_of_fractions hD hD'

theorem map2 (e : Fp2 K) : ∃ P : E2 K, IsMap2 e P ∧ (G2.isogenyMap ⟨(G2.swuMapG2 e).1, (G2.swuMapG2 e).2, Fp2.one⟩ : G2 K).Rep P := by
  have hs := swu2 e
  obtain ⟨P, hP, hr⟩ := iso2 Fp2.one hs.2.1
  exact ⟨P, ⟨_, _, hs, hP⟩, hr⟩

end

theorem iso_unique {F : Type} [Field F] {b : F} {n d n' d' : List F} {x y : F} {P P' : (curve b).Point}
    (h : IsIso n d n' d' x y P) (h' : IsIso n d n' d' x y P') : P = P' := by
  rcases h with ⟨h0, h1⟩ | ⟨h0, h1, _, h2⟩ <;> rcases h' with ⟨k0, k1⟩ | ⟨k0, k1, _, k2⟩
  · rw [h1, k1]
  · exact (h0.elim k0 k1).elim
  · exact (k0.elim h0 h1).elim
  · rw [h2, k2]

theorem map2_unique {K : Type} [Field K] [FpOps K] [LawfulFp K] [DecidableEq K] {e : Fp2 K} {P P' : E2 K} (h : IsMap2 e P) (h' : IsMap2 e P') : P = P' := by
  obtain ⟨x, y, h1, h2⟩ := h
  obtain ⟨x', y', k1, k2⟩ := h'
  obtain ⟨rfl, rfl⟩ := sswu_unique cubic2_ne_zero odd2_neg h1 k1
  exact iso_unique h2 k2

end Bls
