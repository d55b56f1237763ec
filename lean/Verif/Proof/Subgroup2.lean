import Verif.Proof.Subgroup1
import Verif.Spec.Subgroup
import Verif.Proof.Frobenius
import Verif.Proof.PrimeH2
import Mathlib.Tactic.Module

/-! Subgroup membership and cofactor clearing in the second group. -/

set_option linter.unusedSectionVars false

namespace Bls

/-- The large prime factor of the cofactor. -/
def bigPrime : ℕ := 402096035359507321594726366720466575392706800671181159425656785868777272553337714697862511267018014931937703598282857976535744623203249

theorem bigPrime_prime : bigPrime.Prime := H2Prime.p0

/-- The number of points of `E2`. -/
def card2 : ℕ := 13 * 13 * (23 * 23) * 2713 * 11953 * 262069 * bigPrime * q

/-- The coordinates of `psiX` and `psiY`. -/
def psiXN : N2 := ⟨0, 4002409555221667392624310435006688643935503118305586438271171395842971157480381377015405980053539358417135540939437⟩
@[inherit_doc psiXN] def psiYN : N2 := ⟨2973677408986561043442465346520108879172042883009249989176415018091420807192182638567116318576472649347015917690530, 1028732146235106349975324479215795277384839936929757896155643118032610843298655225875571310552543014690878354869257⟩

/-- `ψ = -psiA + psiB ψ²` on the curve. -/
def psiA : ℕ := 1155048275357884106335086113613464118783412807316232579754
@[inherit_doc psiA] def psiB : ℕ := 2310096550715768212670172227226928237551693238409523516757

section
variable {G : Type*} [AddCommGroup G]

theorem psi_inj (s : G →+ G) (hs : ∀ P, s (s (s (s P))) - s (s P) + P = 0) {P : G} (h : s P = 0) : P = 0 := by
  have := hs P
  rwa [h, map_zero, map_zero, map_zero, sub_zero, zero_add] at this

/-- What `g2::inCorrectSubgroup` tests. -/
theorem psi_test_iff (s : G →+ G) (hs : ∀ P, s (s (s (s P))) - s (s P) + P = 0) (P : G) :
    -(zabs • s (s (s P))) + -(s (s P)) + P = 0 ↔ s P = -(zabs • P) := by
  have h : -(zabs • s (s (s P))) + -(s (s P)) + P = -(s (s (s (s P + zabs • P)))) := by
    rw [map_add, map_add, map_add, map_nsmul, map_nsmul, map_nsmul]
    have := hs P
    have e : P = s (s P) - s (s (s (s P))) := by
      rw [← sub_eq_zero, ← this]; abel
    nth_rw 3 [e]
    abel
  rw [h, neg_eq_zero, ← add_eq_zero_iff_eq_neg]
  exact ⟨fun h => psi_inj s hs (psi_inj s hs (psi_inj s hs h)), fun h => by rw [h, map_zero, map_zero, map_zero]⟩

theorem psi_sound (s : G →+ G) (hs : ∀ P, s (s (s (s P))) - s (s P) + P = 0) {P : G} (h : s P = -(zabs • P)) :
    q • P = 0 := by
  have h2 : s (s P) = (zabs ^ 2) • P := by
    rw [h, map_neg, map_nsmul, h, smul_neg, neg_neg, ← mul_smul, sq]
  have h4 : s (s (s (s P))) = (zabs ^ 4) • P := by
    rw [h2, map_nsmul, map_nsmul, h2, ← mul_smul]; congr 1
  have := hs P
  rw [h4, h2] at this
  rw [← this, show zabs ^ 4 = (q - 1) + zabs ^ 2 by decide +kernel, add_smul, add_sub_cancel_right,
    show q = (q - 1) + 1 by decide +kernel, add_smul, one_smul]
  rfl

/-- The subgroup `s P + a P = b s² P`. -/
def relGroup (s : G →+ G) (a b : ℕ) : AddSubgroup G where
  carrier := {P | s P + a • P = b • s (s P)}
  zero_mem' := by simp
  add_mem' := by
    intro P Q (hP : s P + a • P = b • s (s P)) (hQ : s Q + a • Q = b • s (s Q))
    change s (P + Q) + a • (P + Q) = b • s (s (P + Q))
    rw [map_add, map_add, smul_add, smul_add, ← hP, ← hQ]; abel
  neg_mem' := by
    intro P (hP : s P + a • P = b • s (s P))
    change s (-P) + a • (-P) = b • s (s (-P))
    rw [map_neg, map_neg, smul_neg, smul_neg, ← hP]; abel

theorem relGroup_map (s : G →+ G) {a b : ℕ} {P : G} (h : P ∈ relGroup s a b) : s P ∈ relGroup s a b := by
  have h' : s P + a • P = b • s (s P) := h
  have := congrArg s h'
  rw [map_add, map_nsmul, map_nsmul] at this
  exact this

theorem sub_prime_dvd [Finite G] {A : AddSubgroup G} {r : ℕ} (hr : r.Prime) {P : G} (hP : P ∈ A) (h : r • P = 0)
    (h0 : P ≠ 0) : r ∣ Nat.card A :=
  prime_dvd_card hr (g := (⟨P, hP⟩ : A)) (Subtype.ext h) (fun e => h0 (congrArg Subtype.val e))

theorem sub_two_dvd [Finite G] {A : AddSubgroup G} {r : ℕ} (hr : r.Prime) {P Q : G} (hP : P ∈ A) (hQ : Q ∈ A)
    (h : r • P = 0) (h' : r • Q = 0) (h0 : P ≠ 0) (hi : ∀ k < r, k • P ≠ Q) : r * r ∣ Nat.card A := by
  obtain ⟨m, hm, _⟩ := two_points hr (U := (⟨P, hP⟩ : A)) (V := ⟨Q, hQ⟩) (Subtype.ext h) (Subtype.ext h')
    (fun e => h0 (congrArg Subtype.val e)) (by
      intro hmem
      obtain ⟨k, hk⟩ := AddSubgroup.mem_zmultiples_iff.1 hmem
      have hk' : k • P = Q := congrArg Subtype.val hk
      have hr0 : (0 : ℤ) < r := by exact_mod_cast hr.pos
      refine hi (k % r).toNat ?_ ?_
      · have := Int.emod_lt_of_pos k hr0
        have := Int.emod_nonneg k hr0.ne'
        omega
      · rw [← natCast_zsmul, Int.toNat_of_nonneg (Int.emod_nonneg k hr0.ne'), ← hk', Int.emod_def, sub_smul,
          mul_comm (r : ℤ), mul_smul, natCast_zsmul, h, smul_zero, sub_zero])
  exact ⟨m, hm⟩

theorem eigen_zmultiples (s : G →+ G) {g P : G} {n : ℕ} (hg : s g = -(n • g)) (h : P ∈ AddSubgroup.zmultiples g) :
    s P = -(n • P) := by
  obtain ⟨k, rfl⟩ := AddSubgroup.mem_zmultiples_iff.1 h
  rw [map_zsmul, hg, smul_neg, smul_comm]

theorem neg_smul_neg (n : ℕ) (P : G) : -(n • -(n • P)) = (n ^ 2) • P := by
  rw [smul_neg, neg_neg, ← mul_smul, sq]

/-- The combination computed by `g2::clearCofactor`. -/
def clear2 (s : G →+ G) (P : G) : G :=
  (zabs ^ 2) • P - -(zabs • P) - P + s (-(zabs • P) - P) + s (s (P + P))

theorem psi_clear (s : G →+ G) (hs : ∀ P, s (s (s (s P))) - s (s P) + P = 0)
    (hr : ∀ P, s P + psiA • P = psiB • s (s P)) (P : G) : s (clear2 s P) = -(zabs • clear2 s P) := by
  have e1 := hs P
  have e2 := hr P
  have e3 := congrArg s (congrArg s e2)
  rw [map_add, map_add, map_nsmul, map_nsmul, map_nsmul, map_nsmul] at e3
  simp only [clear2, map_add, map_sub, map_neg, map_nsmul, smul_add, smul_sub, smul_neg]
  generalize s (s (s (s P))) = P4 at *
  generalize s (s (s P)) = P3 at *
  generalize s (s P) = P2 at *
  generalize s P = P1 at *
  have f1 : (2 * psiA - psiB - zabs + 1 : ℤ) • P2 = 0 := by
    rw [show (2 * psiA - psiB - zabs + 1 : ℤ) = 0 by decide +kernel, zero_smul]
  have f2 : (2 * psiB - psiA - zabs ^ 3 - zabs ^ 2 + zabs : ℤ) • P = 0 := by
    rw [show (2 * psiB - psiA - zabs ^ 3 - zabs ^ 2 + zabs : ℤ) = 0 by decide +kernel, zero_smul]
  generalize zabs = Z at *
  generalize psiA = A at *
  generalize psiB = B at *
  linear_combination (norm := module) (2 : ℤ) • e3 - e2 + (2 * B : ℤ) • e1 - f1 - f2

end

section
variable {N F : Type} [Ops N] [Strict N] [Field F] [DecidableEq F] [Ops F] [LawfulOps F] {f : N → F} [OpsHom f]

theorem rel_of_eval {b : F} (hb : GoodCurve b) {a a' a'' : Jac N} {P P' P'' : (curve b).Point} (h : (a.map f).Rep P)
    (h' : (a'.map f).Rep P') (h'' : (a''.map f).Rep P'') {A B : ℕ}
    (hz : (a'.add (natMul A a)).equal (natMul B a'') = true) : P' + A • P = B • P'' := by
  have r4 := Jac.add_rep hb h' (natMul_rep f hb A _ _ h)
  have r5 := natMul_rep f hb B _ _ h''
  rw [← Jac.map_add] at r4
  rwa [← Jac.map_equal f, Jac.equal_iff r4 r5] at hz

theorem sub_rep' {b : F} (hb : GoodCurve b) {a a' : Jac F} {P P' W : (curve b).Point} (h : a.Rep P) (h' : a'.Rep P')
    (hW : P - P' = W) : (a.subtract a').Rep W := hW ▸ Jac.sub_rep hb h h'

theorem clear_rep {b : F} (hb : GoodCurve b) {a1 a0 a f1 f2 : Jac F} {P1 P0 P F1 F2 : (curve b).Point} (h1 : a1.Rep P1)
    (h0 : a0.Rep P0) (h : a.Rep P) (hf1 : f1.Rep F1) (hf2 : f2.Rep F2) :
    ((((a1.subtract a0).subtract a).add f1).add f2).Rep (P1 - P0 - P + F1 + F2) :=
  Jac.add_rep hb (Jac.add_rep hb (Jac.sub_rep hb (Jac.sub_rep hb h1 h0) h) hf1) hf2

end

section
variable (K : Type) [Field K] [FpOps K] [LawfulFp K] [DecidableEq K]

/-- Conjugation of `F_p²` as a ring homomorphism. -/
def Fp2.conjHom : Fp2 K →+* Fp2 K where
  toFun := Fp2.conj
  map_one' := by ext <;> simp [Fp2.conj]
  map_mul' := Fp2.conj_mul
  map_zero' := by ext <;> simp [Fp2.conj]
  map_add' x y := by ext <;> simp [Fp2.conj]; ring

@[ops_eq] theorem Fp2.psiX_eq : (Fp2.psiX : Fp2 K) = N2.cast K psiXN := by
  rw [Fp2.psiX, const2 _ _ (by decide +kernel) (by decide +kernel)]
  exact N2.to_eq (by decide +kernel)

@[ops_eq] theorem Fp2.psiY_eq : (Fp2.psiY : Fp2 K) = N2.cast K psiYN := by
  rw [Fp2.psiY, const2 _ _ (by decide +kernel) (by decide +kernel)]
  exact N2.to_eq (by decide +kernel)

theorem G2.frb0_eq : (G2.frb0 : Fp2 K) = N2.cast K psiXN := by
  rw [G2.frb0, const2 _ _ (by decide +kernel) (by decide +kernel)]
  exact N2.to_eq (by decide +kernel)

theorem G2.frb1_eq : (G2.frb1 : Fp2 K) = N2.cast K psiYN := by
  rw [G2.frb1, const2 _ _ (by decide +kernel) (by decide +kernel)]
  exact N2.to_eq (by decide +kernel)

theorem psiX_cube : N2.cast K psiXN ^ 3 = N2.cast K psiYN ^ 2 := by
  rw [← N2.to_pow, ← N2.to_pow]; exact N2.to_eq (by decide +kernel)

theorem psiX_ne : N2.cast K psiXN ≠ 0 := by
  intro h
  have h1 : N2.cast K (psiXN.mul (psiXN.pow (p ^ 2 - 2))) = N2.cast K ⟨1, 0⟩ := N2.to_eq (by decide +kernel)
  rw [N2.to_mul, h, zero_mul, N2.to_one] at h1
  exact zero_ne_one h1

theorem psi_const : Fp2.conj (4 * Fp2.xi : Fp2 K) * N2.cast K psiXN ^ 3 = 4 * Fp2.xi := by
  rw [four_xi, ← N2.to_pow]
  change (⟨(N2.cast K ⟨4, 4⟩).c0, -(N2.cast K ⟨4, 4⟩).c1⟩ : Fp2 K) * _ = _
  rw [← N2.to_conj, ← N2.to_mul]
  exact N2.to_eq (by decide +kernel)

theorem psi_u2 : (N2.cast K psiYN / N2.cast K psiXN) ^ 2 = N2.cast K psiXN := by
  have h := psiX_ne K
  rw [div_pow, div_eq_iff (pow_ne_zero 2 h), ← psiX_cube]; ring

theorem psi_u3 : (N2.cast K psiYN / N2.cast K psiXN) ^ 3 = N2.cast K psiYN := by
  have h := psiX_ne K
  rw [pow_succ, psi_u2, mul_div_cancel₀ _ h]

/-- `(x, y) ↦ (psiX x̄, psiY ȳ)`. -/
noncomputable def psiData : EndoData (4 * Fp2.xi : Fp2 K) where
  tau := Fp2.conjHom K
  u := N2.cast K psiYN / N2.cast K psiXN
  hu := by
    intro h
    have := psi_u2 K
    rw [h] at this
    exact psiX_ne K (by rw [← this]; ring)
  hb := by
    rw [show (N2.cast K psiYN / N2.cast K psiXN) ^ 6 = ((N2.cast K psiYN / N2.cast K psiXN) ^ 2) ^ 3 by ring, psi_u2]
    exact psi_const K

/-- The untwisted Frobenius endomorphism of the second curve. -/
noncomputable def psiHom : E2 K →+ E2 K := (psiData K).hom (goodCurve2 K)

/-- The cube root of unity `psiX · conj psiX`. -/
def omegaN : ℕ := 4002409555221667392624310435006688643935503118305586438271171395842971157480381377015405980053539358417135540939436

/-- `(x, y) ↦ (ω x, y)`. -/
noncomputable def omegaData : EndoData (4 * Fp2.xi : Fp2 K) where
  tau := RingHom.id _
  u := N2.cast K ⟨omegaN, 0⟩ ^ 2
  hu := by
    intro h
    have h1 : N2.cast K ((N2.pow ⟨omegaN, 0⟩ 3)) = N2.cast K ⟨1, 0⟩ := N2.to_eq (by decide +kernel)
    rw [N2.to_pow, N2.to_one, pow_succ, h, zero_mul] at h1
    exact zero_ne_one h1
  hb := by
    have h1 : N2.cast K ((N2.pow ⟨omegaN, 0⟩ 12)) = N2.cast K ⟨1, 0⟩ := N2.to_eq (by decide +kernel)
    rw [N2.to_pow, N2.to_one] at h1
    rw [← pow_mul, h1, mul_one]; rfl

theorem omega_u2 : (omegaData K).u ^ 2 = N2.cast K ⟨omegaN, 0⟩ := by
  change (N2.cast K ⟨omegaN, 0⟩ ^ 2) ^ 2 = _
  rw [← pow_mul, ← N2.to_pow]; exact N2.to_eq (by decide +kernel)

theorem omega_u3 : (omegaData K).u ^ 3 = 1 := by
  change (N2.cast K ⟨omegaN, 0⟩ ^ 2) ^ 3 = _
  rw [← pow_mul, ← N2.to_pow, ← N2.to_one]; exact N2.to_eq (by decide +kernel)

/-- The automorphism of the second curve. -/
noncomputable def omegaHom : E2 K →+ E2 K := (omegaData K).hom (goodCurve2 K)

theorem omega_sum (P : E2 K) : omegaHom K (omegaHom K P) + omegaHom K P + P = 0 := by
  refine cube_root_sum (goodCurve2 K) (w := N2.cast K ⟨omegaN, 0⟩) ?_ (omegaData K) rfl (omega_u2 K) (omega_u3 K) P
  rw [← N2.to_pow, ← N2.to_one, ← N2.to_add, ← N2.to_add]
  have : N2.cast K ⟨0, 0⟩ = 0 := by ext <;> simp [N2.cast]
  rw [← this]
  exact N2.to_eq (by decide +kernel)

theorem psi_omega (P : E2 K) : psiHom K (psiHom K P) = -omegaHom K P := by
  match P with
  | .zero => rfl
  | .some x y h =>
    have hX : N2.cast K psiXN * (N2.cast K psiXN).conj = N2.cast K ⟨omegaN, 0⟩ := by
      change _ * (⟨(N2.cast K psiXN).c0, -(N2.cast K psiXN).c1⟩ : Fp2 K) = _
      rw [← N2.to_conj, ← N2.to_mul]; exact N2.to_eq (by decide +kernel)
    have hY : N2.cast K psiYN * (N2.cast K psiYN).conj = -1 := by
      change _ * (⟨(N2.cast K psiYN).c0, -(N2.cast K psiYN).c1⟩ : Fp2 K) = _
      rw [← N2.to_conj, ← N2.to_mul, ← N2.to_one, ← N2.to_neg]; exact N2.to_eq (by decide +kernel)
    have ex : (psiData K).u ^ 2 * (psiData K).tau ((psiData K).u ^ 2 * (psiData K).tau x) =
        (omegaData K).u ^ 2 * (omegaData K).tau x := by
      rw [omega_u2, show (psiData K).u ^ 2 = N2.cast K psiXN from psi_u2 K, map_mul]
      change N2.cast K psiXN * ((N2.cast K psiXN).conj * x.conj.conj) = _ * x
      rw [Fp2.conj_conj, ← mul_assoc, hX]
    have ey : (psiData K).u ^ 3 * (psiData K).tau ((psiData K).u ^ 3 * (psiData K).tau y) =
        -((omegaData K).u ^ 3 * (omegaData K).tau y) := by
      rw [omega_u3, show (psiData K).u ^ 3 = N2.cast K psiYN from psi_u3 K, map_mul]
      change N2.cast K psiYN * ((N2.cast K psiYN).conj * y.conj.conj) = -(1 * y)
      rw [Fp2.conj_conj, ← mul_assoc, hY]; ring
    obtain ⟨n, e⟩ := some_congr (h := (psiData K).map_nonsingular (goodCurve2 K) ((psiData K).map_nonsingular (goodCurve2 K) h)) ex ey
    refine Eq.trans e ?_
    change _ = -(WeierstrassCurve.Affine.Point.some _ _ ((omegaData K).map_nonsingular (goodCurve2 K) h))
    rw [WeierstrassCurve.Affine.Point.neg_some]
    obtain ⟨n', e'⟩ := some_congr (h := n) rfl (negY_curve (a := 0) (b := 4 * Fp2.xi) ((omegaData K).u ^ 2 * (omegaData K).tau x)
      ((omegaData K).u ^ 3 * (omegaData K).tau y)).symm
    exact e'

/-- `ψ⁴ - ψ² + 1 = 0`. -/
theorem psi_quartic (P : E2 K) : psiHom K (psiHom K (psiHom K (psiHom K P))) - psiHom K (psiHom K P) + P = 0 := by
  rw [psi_omega, psi_omega, map_neg, neg_neg, sub_neg_eq_add]
  exact omega_sum K P

variable {K}

theorem psi_rep {a : G2 K} {P : E2 K} (h : a.Rep P) : (G2.psi a).Rep (psiHom K P) := by
  have := (psiData K).hom_rep (goodCurve2 K) h
  rw [show (psiData K).u ^ 2 = N2.cast K psiXN from psi_u2 K, show (psiData K).u ^ 3 = N2.cast K psiYN from psi_u3 K] at this
  have e : G2.psi a = ⟨N2.cast K psiXN * a.x.conj, N2.cast K psiYN * a.y.conj, a.z.conj⟩ := by
    rw [G2.psi]
    simp only [ops_eq, Fp2.conj, Fp2.conjugate]
    congr 1
    · exact mul_comm _ _
    · exact mul_comm _ _
  rw [e]
  exact this

theorem frobenius_one (a : G2 K) : G2.frobeniusMap a 1 = ⟨a.x.conj * N2.cast K psiXN, a.y.conj * N2.cast K psiYN, a.z.conj⟩ := by
  rw [G2.frobeniusMap, G2.frobeniusMap]
  simp only [Fp2.frobeniusMap_eq, pow_one, Fp2.pow_p, G2.frb0_eq, G2.frb1_eq, ops_eq]

theorem frobeniusMap_rep {a : G2 K} {P : E2 K} (h : a.Rep P) : (G2.frobeniusMap a 1).Rep (psiHom K P) := by
  have := (psiData K).hom_rep (goodCurve2 K) h
  rw [show (psiData K).u ^ 2 = N2.cast K psiXN from psi_u2 K, show (psiData K).u ^ 3 = N2.cast K psiYN from psi_u3 K] at this
  have e : G2.frobeniusMap a 1 = ⟨N2.cast K psiXN * a.x.conj, N2.cast K psiYN * a.y.conj, a.z.conj⟩ := by
    rw [frobenius_one]
    congr 1
    · exact mul_comm _ _
    · exact mul_comm _ _
  rw [e]
  exact this

theorem frobeniusMap_two (a : G2 K) : G2.frobeniusMap a 2 = G2.frobeniusMap (G2.frobeniusMap a 1) 1 := rfl

variable (K)

/-- Image of explicit coordinates. -/
def psiNx (x : N2) : N2 := x.conj.mul psiXN
@[inherit_doc psiNx] def psiNy (y : N2) : N2 := y.conj.mul psiYN

theorem psi_pt2 {x y : N2} {h h'} : psiHom K (pt2 K x y h) = pt2 K (psiNx x) (psiNy y) h' := by
  obtain ⟨h1, e⟩ := some_congr (h := (psiData K).map_nonsingular (goodCurve2 K) (x := x.cast K) (y := y.cast K)
    ((goodCurve2 K).nonsingular (by
    have := congrArg (N2.cast K) h
    rw [N2.to_mul, N2.to_add, N2.to_mul, N2.to_mul] at this
    rw [sq, this, four_xi]; ring))) (x' := N2.cast K (psiNx x)) (y' := N2.cast K (psiNy y))
    (show (psiData K).u ^ 2 * (N2.cast K x).conj = _ by
      rw [show (psiData K).u ^ 2 = N2.cast K psiXN from psi_u2 K, psiNx, N2.to_mul, N2.to_conj, mul_comm]; rfl)
    (show (psiData K).u ^ 3 * (N2.cast K y).conj = _ by
      rw [show (psiData K).u ^ 3 = N2.cast K psiYN from psi_u3 K, psiNy, N2.to_mul, N2.to_conj, mul_comm]; rfl)
  exact e

theorem pt2_ne_zero {x y : N2} {h} : pt2 K x y h ≠ 0 := WeierstrassCurve.Affine.Point.some_ne_zero _

/-- The relation between `ψ` and `ψ²` on an explicit point. -/
theorem psi_rel {x y : N2} {h} (h' : (psiNy y).mul (psiNy y) = (((psiNx x).mul (psiNx x)).mul (psiNx x)).add ⟨4, 4⟩)
    (h'' : (psiNy (psiNy y)).mul (psiNy (psiNy y)) =
      (((psiNx (psiNx x)).mul (psiNx (psiNx x))).mul (psiNx (psiNx x))).add ⟨4, 4⟩)
    (hz : ((jac2 (psiNx x) (psiNy y)).add (natMul psiA (jac2 x y))).equal
      (natMul psiB (jac2 (psiNx (psiNx x)) (psiNy (psiNy y)))) = true) :
    psiHom K (pt2 K x y h) + psiA • pt2 K x y h = psiB • psiHom K (psiHom K (pt2 K x y h)) := by
  rw [psi_pt2 K (h' := h'), psi_pt2 K (h' := h'')]
  exact rel_of_eval (goodCurve2 K) (pt2_rep K x y h) (pt2_rep K _ _ h') (pt2_rep K _ _ h'') hz

/-- The points on which the relation holds. -/
noncomputable def relSub : AddSubgroup (E2 K) := relGroup (psiHom K) psiA psiB

/-- Coordinates of a torsion point. -/
def s13x : N2 := ⟨1529213122222015004361677949575454489025496565587433537023047682279986082403775649869902100076248685528054658862606, 2997693595294334494236814942081842722277976760468705368641605047223767681747449627776315232676318306706440741395818⟩
@[inherit_doc s13x] def s13y : N2 := ⟨3982094444327424496671378535163208324024634005124631101891738769289505910175501028960432833510182175150286424302042, 946241870086021214076975075615897414769504452141996316300681643980134481854474349766551941175144371215957711465306⟩

theorem s13_smul : 13 • pt2 K s13x s13y (by decide +kernel) = 0 :=
  smul_eq_zero_of (goodCurve2 K) (pt2_rep K _ _ _) (by decide +kernel)

theorem s13_mem : pt2 K s13x s13y (by decide +kernel) ∈ relSub K :=
  psi_rel K (by decide +kernel) (by decide +kernel) (by decide +kernel)

theorem s13_dvd [Finite (E2 K)] {A : AddSubgroup (E2 K)} (hA : ∀ P ∈ A, psiHom K P ∈ A)
    (hm : pt2 K s13x s13y (by decide +kernel) ∈ A) : 13 * 13 ∣ Nat.card A := by
  refine sub_two_dvd (by norm_num) hm (hA _ hm) (s13_smul K) ?_ (pt2_ne_zero K) ?_
  · rw [← map_nsmul, s13_smul, map_zero]
  · intro k hk e
    rw [psi_pt2 K (h' := by decide +kernel)] at e
    have r1 := natMul_rep _ (goodCurve2 K) k _ _ (pt2_rep K s13x s13y (by decide +kernel))
    have r2 := pt2_rep K (psiNx s13x) (psiNy s13y) (by decide +kernel)
    have h := (Jac.equal_iff r1 r2).2 e
    rw [Jac.map_equal] at h
    have h' : ∀ k < 13, (natMul k (jac2 s13x s13y)).equal (jac2 (psiNx s13x) (psiNy s13y)) = false := by decide +kernel
    rw [h' k hk] at h
    exact Bool.false_ne_true h

/-- Coordinates of a torsion point. -/
def s23x : N2 := ⟨2939869634886654326604913664731966703135425861159565724415586620392723021917955245326110213598878021602043087340431, 2298376744830580063398052744824021835224137616871809308340756422837454263149351674349022971655866733961715162353082⟩
@[inherit_doc s23x] def s23y : N2 := ⟨3493420427821215165049277251698539390072336440500937331357997015424700271289228914960878567537734366236422820856769, 182209994369854809010674956785680627843679293663912148473281130078372510083379687790729874670334671385237384500115⟩

theorem s23_smul : 23 • pt2 K s23x s23y (by decide +kernel) = 0 :=
  smul_eq_zero_of (goodCurve2 K) (pt2_rep K _ _ _) (by decide +kernel)

theorem s23_mem : pt2 K s23x s23y (by decide +kernel) ∈ relSub K :=
  psi_rel K (by decide +kernel) (by decide +kernel) (by decide +kernel)

theorem s23_dvd [Finite (E2 K)] {A : AddSubgroup (E2 K)} (hA : ∀ P ∈ A, psiHom K P ∈ A)
    (hm : pt2 K s23x s23y (by decide +kernel) ∈ A) : 23 * 23 ∣ Nat.card A := by
  refine sub_two_dvd (by norm_num) hm (hA _ hm) (s23_smul K) ?_ (pt2_ne_zero K) ?_
  · rw [← map_nsmul, s23_smul, map_zero]
  · intro k hk e
    rw [psi_pt2 K (h' := by decide +kernel)] at e
    have r1 := natMul_rep _ (goodCurve2 K) k _ _ (pt2_rep K s23x s23y (by decide +kernel))
    have r2 := pt2_rep K (psiNx s23x) (psiNy s23y) (by decide +kernel)
    have h := (Jac.equal_iff r1 r2).2 e
    rw [Jac.map_equal] at h
    have h' : ∀ k < 23, (natMul k (jac2 s23x s23y)).equal (jac2 (psiNx s23x) (psiNy s23y)) = false := by decide +kernel
    rw [h' k hk] at h
    exact Bool.false_ne_true h

/-- Coordinates of a torsion point. -/
def s2713x : N2 := ⟨3949233450558364668298348829993882266210057361438833081222510791780553457416745902613199318472213290103982450912502, 797792305574861144144203280421096493501495103399969067559077823897905818235444793970062579212258660093348626908257⟩
@[inherit_doc s2713x] def s2713y : N2 := ⟨3637011585049407965810089835657189725715752538965845944540523360049778653280504332347692878430984927383637422053930, 2225352297981655400089923597879062351019466687898608982584849360274814353903206126071960984821180873492585334497155⟩

theorem s2713_smul : 2713 • pt2 K s2713x s2713y (by decide +kernel) = 0 :=
  smul_eq_zero_of (goodCurve2 K) (pt2_rep K _ _ _) (by decide +kernel)

theorem s2713_mem : pt2 K s2713x s2713y (by decide +kernel) ∈ relSub K :=
  psi_rel K (by decide +kernel) (by decide +kernel) (by decide +kernel)

theorem s2713_dvd [Finite (E2 K)] {A : AddSubgroup (E2 K)} (hm : pt2 K s2713x s2713y (by decide +kernel) ∈ A) : 2713 ∣ Nat.card A :=
  sub_prime_dvd (by norm_num) hm (s2713_smul K) (pt2_ne_zero K)

/-- Coordinates of a torsion point. -/
def s11953x : N2 := ⟨2715633562291330493191892111607344943089680416621823682079994138879659252825082627525063647274835324311708308524028, 2963748164887172084831468311261124586138842453139388743459608464323482974050363156392429356758367522677634161452645⟩
@[inherit_doc s11953x] def s11953y : N2 := ⟨872953331787216379455568023474755111664353128821254600796245565268532655147469576202790670833216102273211789573300, 2884847176695491860127907914820504938142194110052108420983474105467195973545220218739537416665409793282836124201620⟩

theorem s11953_smul : 11953 • pt2 K s11953x s11953y (by decide +kernel) = 0 :=
  smul_eq_zero_of (goodCurve2 K) (pt2_rep K _ _ _) (by decide +kernel)

theorem s11953_mem : pt2 K s11953x s11953y (by decide +kernel) ∈ relSub K :=
  psi_rel K (by decide +kernel) (by decide +kernel) (by decide +kernel)

theorem s11953_dvd [Finite (E2 K)] {A : AddSubgroup (E2 K)} (hm : pt2 K s11953x s11953y (by decide +kernel) ∈ A) : 11953 ∣ Nat.card A :=
  sub_prime_dvd (by norm_num) hm (s11953_smul K) (pt2_ne_zero K)

/-- Coordinates of a torsion point. -/
def s262069x : N2 := ⟨3137315113558820724312851705594265615715533647486060641936883998808713749891156827505458051927497531685173118638324, 678494215784449478676030752994954677093427962803729984605223367307734355305814544030392760228418970157158399192590⟩
@[inherit_doc s262069x] def s262069y : N2 := ⟨1367888199403420283823024091638862954389111445772071842071203162970162762106070689828732607341160221637084600125812, 3610895884771714855476301742815394746458549932938684585111930897661490450844543722522924610330077532906447668397619⟩

theorem s262069_smul : 262069 • pt2 K s262069x s262069y (by decide +kernel) = 0 :=
  smul_eq_zero_of (goodCurve2 K) (pt2_rep K _ _ _) (by decide +kernel)

theorem s262069_mem : pt2 K s262069x s262069y (by decide +kernel) ∈ relSub K :=
  psi_rel K (by decide +kernel) (by decide +kernel) (by decide +kernel)

theorem s262069_dvd [Finite (E2 K)] {A : AddSubgroup (E2 K)} (hm : pt2 K s262069x s262069y (by decide +kernel) ∈ A) : 262069 ∣ Nat.card A :=
  sub_prime_dvd (by norm_num) hm (s262069_smul K) (pt2_ne_zero K)

/-- Coordinates of a torsion point. -/
def sbigx : N2 := ⟨3080071771751605101133847775460003262030227977197941522150850466976425931044479693954804561638078271031894965963122, 2826352612646208663787934338311119216700416635399183604860556990936841946562091651721646963443464073349736125729816⟩
@[inherit_doc sbigx] def sbigy : N2 := ⟨3670726527590038324486906072444717319814491925538238219679573263918609521478323264405077138566994541508880529453855, 3538559523590317517955251562479658106522236178005657400586984830296703359603790304159545123029311186147713237870446⟩

theorem sbig_smul : bigPrime • pt2 K sbigx sbigy (by decide +kernel) = 0 :=
  smul_eq_zero_of (goodCurve2 K) (pt2_rep K _ _ _) (by decide +kernel)

theorem sbig_mem : pt2 K sbigx sbigy (by decide +kernel) ∈ relSub K :=
  psi_rel K (by decide +kernel) (by decide +kernel) (by decide +kernel)

theorem sbig_dvd [Finite (E2 K)] {A : AddSubgroup (E2 K)} (hm : pt2 K sbigx sbigy (by decide +kernel) ∈ A) : bigPrime ∣ Nat.card A :=
  sub_prime_dvd bigPrime_prime hm (sbig_smul K) (pt2_ne_zero K)

theorem gen2_mem : gen2 K ∈ relSub K := by
  rw [gen2_eq]
  exact psi_rel K (by decide +kernel) (by decide +kernel) (by decide +kernel)

theorem q_dvd2 [Finite (E2 K)] {A : AddSubgroup (E2 K)} (hm : gen2 K ∈ A) : q ∣ Nat.card A :=
  sub_prime_dvd q_prime hm (q_smul_gen2 K) (gen2_ne_zero K)

theorem card2_dvd {c : ℕ} (h1 : 13 * 13 ∣ c) (h2 : 23 * 23 ∣ c) (h3 : 2713 ∣ c) (h4 : 11953 ∣ c) (h5 : 262069 ∣ c)
    (h6 : bigPrime ∣ c) (h7 : q ∣ c) : card2 ∣ c := by
  unfold card2
  exact Nat.Coprime.mul_dvd_of_dvd_of_dvd (by decide +kernel) (Nat.Coprime.mul_dvd_of_dvd_of_dvd (by decide +kernel)
    (Nat.Coprime.mul_dvd_of_dvd_of_dvd (by decide +kernel) (Nat.Coprime.mul_dvd_of_dvd_of_dvd (by decide +kernel)
    (Nat.Coprime.mul_dvd_of_dvd_of_dvd (by decide +kernel) (Nat.Coprime.mul_dvd_of_dvd_of_dvd (by decide +kernel) h1 h2) h3)
    h4) h5) h6) h7

theorem Fp2.finite : Finite (Fp2 K) :=
  Finite.of_injective (fun x : Fp2 K => (x.c0, x.c1)) (fun x y h => Fp2.ext (congrArg Prod.fst h) (congrArg Prod.snd h))

theorem Fp2.card_le : Nat.card (Fp2 K) ≤ p * p := by
  have := Nat.card_le_card_of_injective (fun x : Fp2 K => (x.c0, x.c1))
    (fun x y h => Fp2.ext (congrArg Prod.fst h) (congrArg Prod.snd h))
  rwa [Nat.card_prod, IsFp.card (K := K)] at this

theorem E2_finite : Finite (E2 K) := by
  have := Fp2.finite K
  exact (card_points_le (K := Fp2 K) (a := 0) (b := 4 * Fp2.xi)).1

theorem E2_card_le : Nat.card (E2 K) ≤ 2 * (p * p) + 1 := by
  have := Fp2.finite K
  have h1 := (card_points_le (K := Fp2 K) (a := 0) (b := 4 * Fp2.xi)).2
  have h2 := Fp2.card_le K
  exact h1.trans (by omega)

/-- Subgroups stable under `ψ` with a point of every prime order. -/
structure HasGens (A : AddSubgroup (E2 K)) : Prop where
  psi : ∀ P ∈ A, psiHom K P ∈ A
  m13 : pt2 K s13x s13y (by decide +kernel) ∈ A
  m23 : pt2 K s23x s23y (by decide +kernel) ∈ A
  m2713 : pt2 K s2713x s2713y (by decide +kernel) ∈ A
  m11953 : pt2 K s11953x s11953y (by decide +kernel) ∈ A
  m262069 : pt2 K s262069x s262069y (by decide +kernel) ∈ A
  mbig : pt2 K sbigx sbigy (by decide +kernel) ∈ A
  mq : gen2 K ∈ A

theorem HasGens.dvd {A : AddSubgroup (E2 K)} (h : HasGens K A) : card2 ∣ Nat.card A := by
  have := E2_finite K
  exact card2_dvd (s13_dvd K h.psi h.m13) (s23_dvd K h.psi h.m23) (s2713_dvd K h.m2713) (s11953_dvd K h.m11953)
    (s262069_dvd K h.m262069) (sbig_dvd K h.mbig) (q_dvd2 K h.mq)

theorem relSub_gens : HasGens K (relSub K) :=
  ⟨fun _ h => relGroup_map _ h, s13_mem K, s23_mem K, s2713_mem K, s11953_mem K, s262069_mem K, sbig_mem K, gen2_mem K⟩

/-- The number of points of the second curve. -/
theorem E2_card : Nat.card (E2 K) = card2 := by
  have := E2_finite K
  exact eq_of_dvd_of_le ((relSub_gens K).dvd.trans (AddSubgroup.card_addSubgroup_dvd_card _)) Nat.card_pos.ne' (E2_card_le K)
    (by decide +kernel)

theorem HasGens.eq_top {A : AddSubgroup (E2 K)} (h : HasGens K A) : A = ⊤ := by
  have := E2_finite K
  apply AddSubgroup.eq_top_of_card_eq
  rw [E2_card]
  refine eq_of_dvd_of_le h.dvd Nat.card_pos.ne' ?_ (B := card2) (by decide +kernel)
  rw [← E2_card K]
  exact Nat.le_of_dvd Nat.card_pos (AddSubgroup.card_addSubgroup_dvd_card _)

theorem psi_relation (P : E2 K) : psiHom K P + psiA • P = psiB • psiHom K (psiHom K P) := by
  have : P ∈ relSub K := by rw [(relSub_gens K).eq_top]; trivial
  exact this

/-- A point of order dividing `q` is a multiple of the generator. -/
theorem mem_gen2 {P : E2 K} (h : q • P = 0) : P ∈ AddSubgroup.zmultiples (gen2 K) := by
  have := E2_finite K
  refine torsion_cyclic q_prime (q_smul_gen2 K) (gen2_ne_zero K) ?_ h
  rw [E2_card]
  decide +kernel

theorem psi_gen2 : psiHom K (gen2 K) = -(zabs • gen2 K) := by
  rw [gen2_eq, psi_pt2 K (h' := by decide +kernel), eq_comm, neg_eq_iff_eq_neg]
  have r1 := natMul_rep _ (goodCurve2 K) zabs _ _ (pt2_rep K ⟨gen2X0, gen2X1⟩ ⟨gen2Y0, gen2Y1⟩ (by decide +kernel))
  have r2 := Jac.neg_rep (pt2_rep K (psiNx ⟨gen2X0, gen2X1⟩) (psiNy ⟨gen2Y0, gen2Y1⟩) (by decide +kernel))
  rw [← Jac.map_negate] at r2
  rw [← Jac.equal_iff r1 r2, Jac.map_equal]
  decide +kernel

theorem psi_of_order {P : E2 K} (h : q • P = 0) : psiHom K P = -(zabs • P) := by
  exact eigen_zmultiples _ (psi_gen2 K) (mem_gen2 K h)

variable {K}

theorem scale_cof2 {a : Jac (Fp2 K)} {P : E2 K} (h : a.Rep P) : (a.scale G2.cofactorEFF).Rep (zabs • P) := by
  have := Jac.scale_rep (goodCurve2 K) h G2.cofactorEFF
  rwa [show wordsVal G2.cofactorEFF = zabs by decide +kernel] at this

/-- The membership test of the second group. -/
theorem G2.inCorrectSubgroup_iff {a : G2 K} {P : E2 K} (h : a.Rep P) : G2.inCorrectSubgroup a = true ↔ q • P = 0 := by
  have hg := goodCurve2 K
  have s2 := psi_rep (psi_rep h)
  have s3 := scale_cof2 (psi_rep s2)
  have s4 := Jac.add_rep hg (Jac.add_rep hg (Jac.neg_rep s3) (Jac.neg_rep s2)) h
  unfold G2.inCorrectSubgroup
  refine s4.isZero_iff.trans ?_
  rw [psi_test_iff (psiHom K) (psi_quartic K)]
  exact ⟨psi_sound (psiHom K) (psi_quartic K), psi_of_order K⟩

attribute [local irreducible] zabs in
/-- Cofactor clearing in the second group. -/
theorem G2.clearCofactor_rep {a : G2 K} {P : E2 K} (h : a.Rep P) : (G2.clearCofactor a).Rep (clear2 (psiHom K) P) := by
  have hg := goodCurve2 K
  have t0 := Jac.neg_rep (scale_cof2 h)
  have t1 := Jac.neg_rep (scale_cof2 t0)
  rw [neg_smul_neg] at t1
  have t3 := frobeniusMap_rep (sub_rep' hg t0 h rfl)
  have t4 := frobeniusMap_rep (frobeniusMap_rep (Jac.dbl_rep h))
  unfold clear2 G2.clearCofactor
  exact clear_rep hg t1 t0 h t3 t4

theorem clear2_order (P : E2 K) : q • clear2 (psiHom K) P = 0 :=
  psi_sound (psiHom K) (psi_quartic K) (psi_clear (psiHom K) (psi_quartic K) (psi_relation K) P)

theorem clear2_smul {G : Type*} [AddCommGroup G] (s : G →+ G) (n : ℕ) (P : G) : n • clear2 s P = clear2 s (n • P) := by
  simp only [clear2, map_add, map_sub, map_neg, map_nsmul, smul_add, smul_sub, smul_neg, smul_comm n]

/-- The subgroup on which `clear2` is multiplication by `n`. -/
def clearGroup {G : Type*} [AddCommGroup G] (s : G →+ G) (n : ℕ) : AddSubgroup G where
  carrier := {P | clear2 s P = n • P}
  zero_mem' := by simp [clear2]
  add_mem' := by
    intro P Q (hP : clear2 s P = n • P) (hQ : clear2 s Q = n • Q)
    change clear2 s (P + Q) = n • (P + Q)
    rw [smul_add, ← hP, ← hQ]
    simp only [clear2, map_add, map_sub, map_neg, smul_add]
    abel
  neg_mem' := by
    intro P (hP : clear2 s P = n • P)
    change clear2 s (-P) = n • (-P)
    rw [smul_neg, ← hP]
    simp only [clear2, map_add, map_sub, map_neg, smul_neg]
    abel

theorem clearGroup_map {G : Type*} [AddCommGroup G] (s : G →+ G) (n : ℕ) {P : G} (h : P ∈ clearGroup s n) :
    s P ∈ clearGroup s n := by
  have h' : clear2 s P = n • P := h
  have := congrArg s h'
  rw [map_nsmul] at this
  change clear2 s (s P) = n • s P
  rw [← this]
  simp only [clear2, map_add, map_sub, map_neg, map_nsmul]

theorem clearGroup_of {G : Type*} [AddCommGroup G] (s : G →+ G) (hq : ∀ P, q • clear2 s P = 0) {n l : ℕ} {P : G}
    (hP : l • P = 0) (hc : Nat.gcd q l = 1) (hd : n % l = 0) : P ∈ clearGroup s n := by
  have h1 : l • clear2 s P = 0 := by
    rw [clear2_smul, hP]; simp [clear2]
  have h2 := smul_gcd (hq P) h1
  rw [hc, one_smul] at h2
  change clear2 s P = n • P
  obtain ⟨k, hk⟩ := Nat.dvd_of_mod_eq_zero hd
  rw [h2, hk, mul_comm, mul_smul, hP, smul_zero]

theorem clearGroup_eigen {G : Type*} [AddCommGroup G] (s : G →+ G) {n : ℕ} {P : G} (hP : q • P = 0) (hs : s P = -(zabs • P))
    (hn : n % q = (4 * zabs ^ 2 + 2 * zabs - 1) % q) : P ∈ clearGroup s n := by
  have e : ∀ m : ℕ, m • P = (m % q) • P := fun m => by
    conv_lhs => rw [← Nat.mod_add_div m q, add_smul, mul_comm, mul_smul, hP, smul_zero, add_zero]
  change clear2 s P = n • P
  rw [e n, hn, ← e]
  simp only [clear2, hs, map_add, map_sub, map_neg, map_nsmul]
  rw [← natCast_zsmul P (4 * zabs ^ 2 + 2 * zabs - 1),
    show ((4 * zabs ^ 2 + 2 * zabs - 1 : ℕ) : ℤ) = 4 * zabs ^ 2 + 2 * zabs - 1 by decide +kernel]
  generalize zabs = Z
  module

theorem clear2_eq (P : E2 K) : clear2 (psiHom K) P = hEff2 • P := by
  have h : HasGens K (clearGroup (psiHom K) hEff2) :=
    ⟨fun _ h => clearGroup_map _ _ h,
      clearGroup_of _ clear2_order (s13_smul K) (by decide +kernel) (by decide +kernel),
      clearGroup_of _ clear2_order (s23_smul K) (by decide +kernel) (by decide +kernel),
      clearGroup_of _ clear2_order (s2713_smul K) (by decide +kernel) (by decide +kernel),
      clearGroup_of _ clear2_order (s11953_smul K) (by decide +kernel) (by decide +kernel),
      clearGroup_of _ clear2_order (s262069_smul K) (by decide +kernel) (by decide +kernel),
      clearGroup_of _ clear2_order (sbig_smul K) (by decide +kernel) (by decide +kernel),
      clearGroup_eigen _ (q_smul_gen2 K) (psi_gen2 K) (by decide +kernel)⟩
  have h' : P ∈ clearGroup (psiHom K) hEff2 := by rw [h.eq_top]; trivial
  exact h'

theorem clear2_add {G : Type*} [AddCommGroup G] (s : G →+ G) (P Q : G) : clear2 s (P + Q) = clear2 s P + clear2 s Q := by
  simp only [clear2, map_add, map_sub, map_neg, smul_add]
  abel

end

end Bls
