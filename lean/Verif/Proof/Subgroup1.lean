import Verif.Model.Subgroup
import Verif.Proof.Endo
import Verif.Proof.Torsion
import Verif.Proof.NatEval
import Verif.Proof.PrimeQ

/-! Subgroup membership and cofactor clearing in the first group. -/

set_option linter.unusedSectionVars false

namespace Bls

/-- The absolute value of the curve parameter. -/
def zabs : ℕ := 0xd201000000010000

/-- The number of points of `E1`. -/
def N1 : ℕ := p + zabs

/-- The residue of `glvPhi1`. -/
def betaN : ℕ := 4002409555221667392624310435006688643935503118305586438271171395842971157480381377015405980053539358417135540939436

section
variable {G : Type*} [AddCommGroup G]

/-- What `g1::inCorrectSubgroup` tests. -/
theorem sigma_test_iff (s : G →+ G) (hs : ∀ P, s (s P) + s P + P = 0) (P : G) :
    (76329603384216526021617858986798044501 : ℕ) • (s P + s P - P - s (s P)) - s (s P) = 0 ↔
      (zabs ^ 2 : ℤ) • s P = -P := by
  have h2 : s (s P) = -(s P) - P := by
    have := hs P
    rw [← sub_eq_zero, ← this]; abel
  rw [h2, show s P + s P - P - (-(s P) - P) = (3 : ℕ) • s P by abel, ← mul_smul,
    show (zabs ^ 2 : ℤ) = ((76329603384216526021617858986798044501 * 3 + 1 : ℕ) : ℤ) by decide +kernel, natCast_zsmul, add_smul, one_smul]
  generalize (76329603384216526021617858986798044501 * 3) • s P = A
  rw [show A - (-(s P) - P) = (A + s P) - -P by abel, sub_eq_zero]

theorem sigma_sound (s : G →+ G) (hs : ∀ P, s (s P) + s P + P = 0) {P : G} (h : (zabs ^ 2 : ℤ) • s P = -P) : q • P = 0 := by
  have h2 : s (s P) = -(s P) - P := by
    have := hs P
    rw [← sub_eq_zero, ← this]; abel
  have h1 := congrArg s h
  rw [map_zsmul, map_neg, h2, smul_sub, smul_neg, h, neg_neg] at h1
  have h3 : s P = (zabs ^ 2 - 1 : ℤ) • P := by
    rw [sub_smul, one_smul, ← neg_inj, ← h1]; abel
  rw [h3, ← mul_smul] at h
  rw [← natCast_zsmul, show (q : ℤ) = zabs ^ 2 * (zabs ^ 2 - 1) + 1 by decide +kernel, add_smul, h, one_smul, neg_add_cancel]

theorem sigma_complete (s : G →+ G) {P : G} (h : s P = (zabs ^ 2 - 1) • P) (hq : q • P = 0) : (zabs ^ 2 : ℤ) • s P = -P := by
  rw [h, ← natCast_zsmul P (zabs ^ 2 - 1), ← mul_smul, ← add_eq_zero_iff_eq_neg]
  nth_rw 2 [← one_zsmul P]
  rw [← add_smul, show (zabs : ℤ) ^ 2 * ((zabs ^ 2 - 1 : ℕ) : ℤ) + 1 = (q : ℤ) by decide +kernel, natCast_zsmul, hq]

end

section
variable (K : Type) [Field K] [FpOps K] [LawfulFp K] [DecidableEq K]

@[ops_eq] theorem FpC.glvPhi1_eq : (FpC.glvPhi1 : K) = (betaN : K) := by
  rw [FpC.glvPhi1, const_nat _ (by decide +kernel)]
  exact IsFp.natCast_eq_iff.2 (by decide +kernel)

theorem beta_cube : ((betaN : K)) ^ 3 = 1 := by
  rw [← Nat.cast_pow, ← Nat.cast_one]
  exact IsFp.natCast_eq_iff.2 (by decide +kernel)

theorem beta_sum : ((betaN : K)) ^ 2 + betaN + 1 = 0 := by
  have : ((betaN ^ 2 + betaN + 1 : ℕ) : K) = 0 := IsFp.natCast_eq_zero_iff.2 (by decide +kernel)
  rwa [Nat.cast_add, Nat.cast_add, Nat.cast_one, Nat.cast_pow] at this

/-- `(x, y) ↦ (β x, y)`. -/
def sigmaData : EndoData (4 : K) where
  tau := RingHom.id K
  u := (betaN : K) ^ 2
  hu := by
    apply pow_ne_zero
    intro h
    have := beta_cube K
    rw [h] at this
    exact one_ne_zero (by rw [← this]; ring)
  hb := by
    have := beta_cube K
    change (4 : K) * ((betaN : K) ^ 2) ^ 6 = 4
    linear_combination 4 * ((betaN : K) ^ 9 + (betaN : K) ^ 6 + (betaN : K) ^ 3 + 1) * this

theorem sigma_u2 : (sigmaData K).u ^ 2 = (betaN : K) := by
  change ((betaN : K) ^ 2) ^ 2 = _
  linear_combination (betaN : K) * beta_cube K

theorem sigma_u3 : (sigmaData K).u ^ 3 = 1 := by
  change ((betaN : K) ^ 2) ^ 3 = _
  linear_combination ((betaN : K) ^ 3 + 1) * beta_cube K

/-- The endomorphism of the first curve. -/
noncomputable def sigma : E1 K →+ E1 K := (sigmaData K).hom (goodCurve1 K)

theorem sigma_sum (P : E1 K) : sigma K (sigma K P) + sigma K P + P = 0 :=
  cube_root_sum (goodCurve1 K) (beta_sum K) (sigmaData K) rfl (sigma_u2 K) (sigma_u3 K) P

variable {K}

theorem glvEndomorphism_rep {a : G1 K} {P : E1 K} (h : a.Rep P) : (G1.glvEndomorphism a).Rep (sigma K P) := by
  rw [G1.glvEndomorphism]
  by_cases h0 : P = 0
  · rw [if_pos (h.isZero_iff.2 h0), h0, map_zero]
    exact Jac.zero_rep
  · rw [if_neg (fun h1 => h0 (h.isZero_iff.1 h1))]
    have := (sigmaData K).hom_rep (goodCurve1 K) (Jac.affine_rep h)
    rw [sigma_u2, sigma_u3] at this
    have e : FpC.phi a.affine.x = (betaN : K) * a.affine.x := by
      rw [FpC.phi]
      simp only [ops_eq]
      ring
    change (⟨FpC.phi a.affine.x, a.affine.y, a.affine.z⟩ : Jac K).Rep _
    rw [one_mul] at this
    rw [e]
    exact this

variable (K)

theorem sigma_pt1 {x y x' : ℕ} {h h'} (hx : betaN * x % p = x') : sigma K (pt1 K x y h) = pt1 K x' y h' := by
  obtain ⟨h1, e⟩ := some_congr (h := (sigmaData K).map_nonsingular (goodCurve1 K) (x := (x : K)) (y := (y : K))
    ((goodCurve1 K).nonsingular (by
    have := (IsFp.natCast_eq_iff (K := K)).2 h
    rw [Nat.cast_mul, Nat.cast_add, Nat.cast_mul, Nat.cast_mul, Nat.cast_ofNat] at this
    rw [sq, this]; ring))) (x' := (x' : K)) (y' := (y : K))
    (show (sigmaData K).u ^ 2 * (x : K) = x' by
      rw [sigma_u2, ← Nat.cast_mul]
      exact IsFp.natCast_eq_iff.2 (by rw [← hx, Nat.mod_mod]))
    (show (sigmaData K).u ^ 3 * (y : K) = y by rw [sigma_u3, one_mul])
  exact e

theorem pt1_ne_zero {x y : ℕ} {h} : pt1 K x y h ≠ 0 := WeierstrassCurve.Affine.Point.some_ne_zero _

/-- Coordinates of a torsion point. -/
def t11x : ℕ := 3565769774833005028474017114938823260183839245406649361903132249252506180850507029069058535120013159559121156298386
@[inherit_doc t11x] def t11y : ℕ := 1361032848920756422517604046183094371931399651818300504191559027686165387603753150518850719832556529323314120938428

theorem t11_smul : 11 • pt1 K t11x t11y (by decide +kernel) = 0 :=
  smul_eq_zero_of (goodCurve1 K) (pt1_rep K _ _ _) (by decide +kernel)

theorem t11_two [Finite (E1 K)] : ∃ m, Nat.card (E1 K) = 11 * 11 * m ∧ ∀ P : E1 K, (11 * m) • P = 0 := by
  refine two_points (by norm_num) (t11_smul K) (V := sigma K (pt1 K t11x t11y (by decide +kernel))) ?_ (pt1_ne_zero K) ?_
  · rw [← map_nsmul, t11_smul, map_zero]
  · refine inert_indep (l := 11) (by norm_num) (sigma K) (sigma_sum K _) (t11_smul K) (pt1_ne_zero K) ?_ (by norm_num)
    have h := powMod_eq 11 (11 - 3) (11 / 2)
    have e1 : powMod 11 (11 - 3) (11 / 2) = 11 - 1 := by decide +kernel
    rw [e1] at h
    have e3 : (((11 - 3 : ℕ)) : ZMod 11) = ((-3 : ℤ) : ZMod 11) := by
      rw [← Int.cast_natCast, ZMod.intCast_eq_intCast_iff]; decide
    have e4 : (((11 - 1 : ℕ)) : ZMod 11) = -1 := by
      rw [← Int.cast_natCast, show (-1 : ZMod 11) = ((-1 : ℤ) : ZMod 11) by norm_num, ZMod.intCast_eq_intCast_iff]; decide
    rw [e3, e4] at h
    exact h.symm

/-- Coordinates of a torsion point. -/
def t52437899x : ℕ := 1313889931241341856130019157324200388891689761724312565037810394135692202612700539102783245023690289153179730356724
@[inherit_doc t52437899x] def t52437899y : ℕ := 1004158368570897894002642452689952714824269348569574720838900318900640771421809919077386148071926084045651947485770

theorem t52437899_smul : 52437899 • pt1 K t52437899x t52437899y (by decide +kernel) = 0 :=
  smul_eq_zero_of (goodCurve1 K) (pt1_rep K _ _ _) (by decide +kernel)

theorem t52437899_two [Finite (E1 K)] : ∃ m, Nat.card (E1 K) = 52437899 * 52437899 * m ∧ ∀ P : E1 K, (52437899 * m) • P = 0 := by
  refine two_points (by norm_num) (t52437899_smul K) (V := sigma K (pt1 K t52437899x t52437899y (by decide +kernel))) ?_ (pt1_ne_zero K) ?_
  · rw [← map_nsmul, t52437899_smul, map_zero]
  · refine inert_indep (l := 52437899) (by norm_num) (sigma K) (sigma_sum K _) (t52437899_smul K) (pt1_ne_zero K) ?_ (by norm_num)
    have h := powMod_eq 52437899 (52437899 - 3) (52437899 / 2)
    have e1 : powMod 52437899 (52437899 - 3) (52437899 / 2) = 52437899 - 1 := by decide +kernel
    rw [e1] at h
    have e3 : (((52437899 - 3 : ℕ)) : ZMod 52437899) = ((-3 : ℤ) : ZMod 52437899) := by
      rw [← Int.cast_natCast, ZMod.intCast_eq_intCast_iff]; decide
    have e4 : (((52437899 - 1 : ℕ)) : ZMod 52437899) = -1 := by
      rw [← Int.cast_natCast, show (-1 : ZMod 52437899) = ((-1 : ℤ) : ZMod 52437899) by norm_num, ZMod.intCast_eq_intCast_iff]; decide
    rw [e3, e4] at h
    exact h.symm

/-- Coordinates of a torsion point. -/
def t10177ux : ℕ := 446539040610652403842392743297529198921103393599281173056715025395429821172992749442747402166832653297170522389695
@[inherit_doc t10177ux] def t10177uy : ℕ := 1485222657753935913331213608359077974886514442913187607086132324722846980623917846531113954631652824916754240849949

/-- Coordinates of a torsion point. -/
def t10177vx : ℕ := 1388999632027303485826802005849605517666175914079677166047650666990650639232055822636894572880263428737482442869012
@[inherit_doc t10177vx] def t10177vy : ℕ := 1328866620113882597108003042613273944728055755136842578778792510811771540162736733212697481455290767488282272090935

/-- Coordinates of a torsion point. -/
def t10177sux : ℕ := 3489420575919680390432444796506490016066042988834973049855369059398308336739855314407793878141996364505160620343499
@[inherit_doc t10177sux] def t10177suy : ℕ := 1485222657753935913331213608359077974886514442913187607086132324722846980623917846531113954631652824916754240849949

/-- Coordinates of a torsion point. -/
def t10177svx : ℕ := 2839391239911414912532868874896774267052103510058635560958891672865737530117086344036857178416184332650385219584311
@[inherit_doc t10177svx] def t10177svy : ℕ := 1328866620113882597108003042613273944728055755136842578778792510811771540162736733212697481455290767488282272090935

theorem t10177_two [Finite (E1 K)] : ∃ m, Nat.card (E1 K) = 10177 * 10177 * m ∧ ∀ P : E1 K, (10177 * m) • P = 0 := by
  have hU : 10177 • pt1 K t10177ux t10177uy (by decide +kernel) = 0 :=
    smul_eq_zero_of (goodCurve1 K) (pt1_rep K _ _ _) (by decide +kernel)
  have hV : 10177 • pt1 K t10177vx t10177vy (by decide +kernel) = 0 :=
    smul_eq_zero_of (goodCurve1 K) (pt1_rep K _ _ _) (by decide +kernel)
  have sU : sigma K (pt1 K t10177ux t10177uy (by decide +kernel)) = 4773 • pt1 K t10177ux t10177uy (by decide +kernel) := by
    rw [sigma_pt1 K (x' := t10177sux) (h' := by decide +kernel) (by decide +kernel)]
    exact (smul_eq_of (goodCurve1 K) (pt1_rep K _ _ _) (pt1_rep K _ _ _) (by decide +kernel)).symm
  have sV : sigma K (pt1 K t10177vx t10177vy (by decide +kernel)) = 5403 • pt1 K t10177vx t10177vy (by decide +kernel) := by
    rw [sigma_pt1 K (x' := t10177svx) (h' := by decide +kernel) (by decide +kernel)]
    exact (smul_eq_of (goodCurve1 K) (pt1_rep K _ _ _) (pt1_rep K _ _ _) (by decide +kernel)).symm
  exact two_points (by norm_num) hU hV (pt1_ne_zero K)
    (eigen_indep (sigma K) sU sV hV (pt1_ne_zero K) (c := 210) (d := -13) (by norm_num))

/-- Coordinates of a torsion point. -/
def t859267ux : ℕ := 842350488862716273942224128006890560162354407103409729597352351513564096845344358985919876750664709265837445471116
@[inherit_doc t859267ux] def t859267uy : ℕ := 3305973160822372518096190296083831860906554126151585423057520719998402260217610226975633328193426330886986372499734

/-- Coordinates of a torsion point. -/
def t859267vx : ℕ := 967288934223255746623520699777537630164146219726087735128516773858135013692360929983159327194524941932668601148178
@[inherit_doc t859267vx] def t859267vy : ℕ := 2782774295700802460204719539835188558858557565909786764684763554419570120302209650148726168214448257829091742131442

/-- Coordinates of a torsion point. -/
def t859267sux : ℕ := 2383116091615964125834747180155148378923491299878835324915671363589981584401475130238789594015784073380904573241692
@[inherit_doc t859267sux] def t859267suy : ℕ := 3305973160822372518096190296083831860906554126151585423057520719998402260217610226975633328193426330886986372499734

/-- Coordinates of a torsion point. -/
def t859267svx : ℕ := 662184001353547151449371944947304684120403229142840219719261897621769879562242224757747536633422721512835497870049
@[inherit_doc t859267svx] def t859267svy : ℕ := 2782774295700802460204719539835188558858557565909786764684763554419570120302209650148726168214448257829091742131442

theorem t859267_two [Finite (E1 K)] : ∃ m, Nat.card (E1 K) = 859267 * 859267 * m ∧ ∀ P : E1 K, (859267 * m) • P = 0 := by
  have hU : 859267 • pt1 K t859267ux t859267uy (by decide +kernel) = 0 :=
    smul_eq_zero_of (goodCurve1 K) (pt1_rep K _ _ _) (by decide +kernel)
  have hV : 859267 • pt1 K t859267vx t859267vy (by decide +kernel) = 0 :=
    smul_eq_zero_of (goodCurve1 K) (pt1_rep K _ _ _) (by decide +kernel)
  have sU : sigma K (pt1 K t859267ux t859267uy (by decide +kernel)) = 119571 • pt1 K t859267ux t859267uy (by decide +kernel) := by
    rw [sigma_pt1 K (x' := t859267sux) (h' := by decide +kernel) (by decide +kernel)]
    exact (smul_eq_of (goodCurve1 K) (pt1_rep K _ _ _) (pt1_rep K _ _ _) (by decide +kernel)).symm
  have sV : sigma K (pt1 K t859267vx t859267vy (by decide +kernel)) = 739695 • pt1 K t859267vx t859267vy (by decide +kernel) := by
    rw [sigma_pt1 K (x' := t859267svx) (h' := by decide +kernel) (by decide +kernel)]
    exact (smul_eq_of (goodCurve1 K) (pt1_rep K _ _ _) (pt1_rep K _ _ _) (by decide +kernel)).symm
  exact two_points (by norm_num) hU hV (pt1_ne_zero K)
    (eigen_indep (sigma K) sU sV hV (pt1_ne_zero K) (c := 206708) (d := -149179) (by norm_num))

theorem three_dvd [Finite (E1 K)] : 3 ∣ Nat.card (E1 K) :=
  prime_dvd_card (by norm_num) (g := pt1 K 0 2 (by decide +kernel))
    (smul_eq_zero_of (goodCurve1 K) (pt1_rep K _ _ _) (by decide +kernel)) (pt1_ne_zero K)

theorem E1_finite : Finite (E1 K) := (card_points_le (K := K) (a := 0) (b := 4)).1

theorem q_dvd1 [Finite (E1 K)] : q ∣ Nat.card (E1 K) := prime_dvd_card q_prime (q_smul_gen1 K) (gen1_ne_zero K)

theorem eq_of_dvd_of_le {c n B : ℕ} (h : n ∣ c) (h0 : c ≠ 0) (h1 : c ≤ B) (h2 : B < n * 2) : c = n := by
  obtain ⟨k, rfl⟩ := h
  have : n * k < n * 2 := lt_of_le_of_lt h1 h2
  have hk2 : k < 2 := Nat.lt_of_mul_lt_mul_left this
  have hk0 : k ≠ 0 := by rintro rfl; exact h0 (mul_zero n)
  rw [show k = 1 by omega, mul_one]

theorem N1_dvd {c : ℕ} (h1 : 11 * 11 ∣ c) (h2 : 52437899 * 52437899 ∣ c) (h3 : 10177 * 10177 ∣ c) (h4 : 859267 * 859267 ∣ c)
    (h5 : 3 ∣ c) (h6 : q ∣ c) : N1 ∣ c := by
  rw [show N1 = (((((11 * 11) * (52437899 * 52437899)) * (10177 * 10177)) * (859267 * 859267)) * 3) * q by decide +kernel]
  exact Nat.Coprime.mul_dvd_of_dvd_of_dvd (by decide +kernel) (Nat.Coprime.mul_dvd_of_dvd_of_dvd (by decide +kernel)
    (Nat.Coprime.mul_dvd_of_dvd_of_dvd (by decide +kernel) (Nat.Coprime.mul_dvd_of_dvd_of_dvd (by decide +kernel)
    (Nat.Coprime.mul_dvd_of_dvd_of_dvd (by decide +kernel) h1 h2) h3) h4) h5) h6

/-- The number of points of the first curve. -/
theorem E1_card : Nat.card (E1 K) = N1 := by
  have := E1_finite K
  obtain ⟨m1, h1, _⟩ := t11_two K
  obtain ⟨m2, h2, _⟩ := t52437899_two K
  obtain ⟨m3, h3, _⟩ := t10177_two K
  obtain ⟨m4, h4, _⟩ := t859267_two K
  have h5 := three_dvd K
  have h6 := q_dvd1 K
  have hd := N1_dvd ⟨_, h1⟩ ⟨_, h2⟩ ⟨_, h3⟩ ⟨_, h4⟩ h5 h6
  have hle := (card_points_le (K := K) (a := 0) (b := 4)).2
  rw [IsFp.card (K := K)] at hle
  exact eq_of_dvd_of_le hd Nat.card_pos.ne' hle (by decide +kernel)

/-- A point of order dividing `q` is a multiple of the generator. -/
theorem mem_gen1 {P : E1 K} (h : q • P = 0) : P ∈ AddSubgroup.zmultiples (gen1 K) := by
  have := E1_finite K
  refine torsion_cyclic q_prime (q_smul_gen1 K) (gen1_ne_zero K) ?_ h
  rw [E1_card]
  decide +kernel

/-- The exponent of the group divides `(1 - z) q`. -/
theorem E1_exponent (P : E1 K) : ((zabs + 1) * q) • P = 0 := by
  have := E1_finite K
  obtain ⟨m1, h1, k1⟩ := t11_two K
  obtain ⟨m2, h2, k2⟩ := t52437899_two K
  obtain ⟨m3, h3, k3⟩ := t10177_two K
  obtain ⟨m4, h4, k4⟩ := t859267_two K
  rw [E1_card] at h1 h2 h3 h4
  have e : ∀ {l m : ℕ}, 0 < l → N1 = l * l * m → l * m = N1 / l := fun hl h => by
    rw [h, mul_assoc, Nat.mul_div_cancel_left _ hl]
  have g1 := k1 P
  have g2 := k2 P
  have g3 := k3 P
  have g4 := k4 P
  rw [e (by norm_num) h1] at g1
  rw [e (by norm_num) h2] at g2
  rw [e (by norm_num) h3] at g3
  rw [e (by norm_num) h4] at g4
  have := smul_gcd (smul_gcd g1 g2) (smul_gcd g3 g4)
  rwa [show Nat.gcd (Nat.gcd (N1 / 11) (N1 / 52437899)) (Nat.gcd (N1 / 10177) (N1 / 859267)) = (zabs + 1) * q by
    decide +kernel] at this

theorem sigma_gen1 : sigma K (gen1 K) = (zabs ^ 2 - 1) • gen1 K := by
  rw [gen1_eq, sigma_pt1 K (x' := 1363899931784043859236280108573119204916182591308780208743029070928575622108746630365186652782525549269189427927163) (h' := by decide +kernel) (by decide +kernel)]
  exact (smul_eq_of (goodCurve1 K) (pt1_rep K _ _ _) (pt1_rep K _ _ _) (by decide +kernel)).symm

theorem sigma_of_order {P : E1 K} (h : q • P = 0) : sigma K P = (zabs ^ 2 - 1) • P := by
  obtain ⟨k, rfl⟩ := AddSubgroup.mem_zmultiples_iff.1 (mem_gen1 K h)
  rw [map_zsmul, sigma_gen1, smul_comm]

variable {K}

/-- The scalar `(z² - 1) / 3` of the membership test. -/
def glvWords : List UInt64 := [0x0000000055555555, 0x396c8c005555e156]

theorem glvWords_val : wordsVal glvWords = 76329603384216526021617858986798044501 := by decide +kernel

theorem scale_glvWords {a : Jac K} {P : E1 K} (h : a.Rep P) :
    (a.scale glvWords).Rep (76329603384216526021617858986798044501 • P) := by
  rw [← glvWords_val]; exact Jac.scale_rep (goodCurve1 K) h glvWords

/-- The membership test of the first group. -/
theorem G1.inCorrectSubgroup_iff {a : G1 K} {P : E1 K} (h : a.Rep P) : G1.inCorrectSubgroup a = true ↔ q • P = 0 := by
  have hg := goodCurve1 K
  have s1 := glvEndomorphism_rep h
  have s2 := glvEndomorphism_rep s1
  have s3 := Jac.sub_rep hg (Jac.sub_rep hg (Jac.dbl_rep s1) h) s2
  obtain ⟨W, hW⟩ : ∃ W, sigma K P + sigma K P - P - sigma K (sigma K P) = W := ⟨_, rfl⟩
  rw [hW] at s3
  have s4 := scale_glvWords s3
  have s5 := Jac.sub_rep hg s4 s2
  unfold G1.inCorrectSubgroup
  refine s5.isZero_iff.trans ?_
  rw [← hW, sigma_test_iff (sigma K) (sigma_sum K)]
  exact ⟨sigma_sound (sigma K) (sigma_sum K), fun hq => sigma_complete (sigma K) (sigma_of_order K hq) hq⟩

/-- Cofactor clearing in the first group is multiplication by `1 - z`. -/
theorem G1.clearCofactor_rep {a : G1 K} {P : E1 K} (h : a.Rep P) : (G1.clearCofactor a).Rep ((zabs + 1) • P) := by
  have := Jac.scale_rep (goodCurve1 K) h G1.cofactorEFF
  rwa [show wordsVal G1.cofactorEFF = zabs + 1 by decide +kernel] at this

theorem clear1_order (P : E1 K) : q • ((zabs + 1) • P) = 0 := by
  rw [← mul_smul, mul_comm]; exact E1_exponent K P

end

end Bls
