import Verif.Proof.Miller
import Verif.Proof.Bilinear
import Verif.Proof.Subgroup

/-! The steps of the Miller loop: multiples of the base point and values of tangents and chords. -/

set_option linter.unusedSectionVars false

namespace Bls

open WeierstrassCurve.Affine Chord

section
variable {F L : Type} [Field F] [DecidableEq F] [Field L] {S : Ext F L} {b : F}

/-- Homogeneous coordinates, as the Miller loop uses them: `x = X/Z`, `y = Y/Z`. -/
def Jac.HRep (r : Jac F) : (curve b).Point → Prop
  | .zero => False
  | .some x y _ => r.z ≠ 0 ∧ r.x = x * r.z ∧ r.y = y * r.z

/-- The value of a line with coefficients `c0`, `c1`, `c2`. -/
def Ext.Pt.lin (P : S.Pt b) (c0 c1 c2 : F) : L := S.emb c0 + S.emb c1 * P.ax + S.emb c2 * P.ay

theorem dbl_step (h2 : (2 : F) ≠ 0) {h : F} (hh : 2 * h = 1) {r : Jac F} {R : (curve b).Point} (hr : r.HRep R)
    (hR : R + R ≠ 0) :
    (⟨(r.y * r.y - 9 * b * (r.z * r.z)) * (r.x * r.y * h),
      ((r.y * r.y + 9 * b * (r.z * r.z)) * h) * ((r.y * r.y + 9 * b * (r.z * r.z)) * h) -
        27 * b * b * (r.z * r.z) * (r.z * r.z), r.y * r.y * (2 * r.y * r.z)⟩ : Jac F).HRep (R + R) ∧
    ∃ c : F, c ≠ 0 ∧ ∀ P : S.Pt b, P.lin (3 * b * (r.z * r.z) - r.y * r.y) (3 * r.x * r.x) (-(2 * r.y * r.z)) =
      S.emb c * P.ev (chord R R) := by
  match R, hr with
  | .some x y hn, ⟨hz, hx, hy⟩ =>
    have hy0 := Ext.add_self_ne hR
    have hnn : ¬(x = x ∧ y = -y) := by
      rintro ⟨-, e⟩
      exact mul_ne_zero h2 hy0 (by linear_combination e)
    obtain ⟨m, k, x₃, h₃, hs, hc, v1, -, w1, -, -, -, w4⟩ := line_vieta h2 hn hn hnn
    obtain ⟨-, hyy, hm⟩ := w4 rfl
    have E := equation_iff.1 hn.1
    have hb : b = y ^ 2 - x ^ 3 := by linear_combination -E
    have hx3 : x₃ = m ^ 2 - 2 * x := by linear_combination w1
    have hk : k = y - m * x := by linear_combination -v1
    obtain ⟨X, Y, Z⟩ := r
    change Z ≠ 0 at hz
    change X = x * Z at hx
    change Y = y * Z at hy
    subst hx hy
    constructor
    · rw [hs]
      refine ⟨?_, ?_, ?_⟩
      · exact mul_ne_zero (mul_ne_zero (mul_ne_zero hy0 hz) (mul_ne_zero hy0 hz))
          (mul_ne_zero (mul_ne_zero h2 (mul_ne_zero hy0 hz)) hz)
      · change (y * Z * (y * Z) - 9 * b * (Z * Z)) * (x * Z * (y * Z) * h) = x₃ * (y * Z * (y * Z) * (2 * (y * Z) * Z))
        rw [hx3]
        linear_combination Z ^ 4 * (-y * h * (2 * m * y + 3 * x ^ 2) * hm + 9 * x * y * h * E +
          (2 * m ^ 2 * y ^ 3 - 4 * x * y ^ 3) * hh)
      · change ((y * Z * (y * Z) + 9 * b * (Z * Z)) * h) * ((y * Z * (y * Z) + 9 * b * (Z * Z)) * h) -
          27 * b * b * (Z * Z) * (Z * Z) = -(m * x₃ + k) * (y * Z * (y * Z) * (2 * (y * Z) * Z))
        rw [hx3, hk, hb]
        refine mul_left_cancel₀ h2 (mul_left_cancel₀ h2 ?_)
        linear_combination Z ^ 4 * ((10 * y ^ 2 - 9 * x ^ 3) ^ 2 * (2 * h + 1) * hh -
          (12 * x * y ^ 2 - (m * (2 * y)) ^ 2 - m * (2 * y) * 3 * x ^ 2 - 9 * x ^ 4) * hm)
    · refine ⟨-(2 * y * (Z * Z)), neg_ne_zero.2 (mul_ne_zero (mul_ne_zero h2 hy0) (mul_ne_zero hz hz)), fun P => ?_⟩
      rw [hc, P.ev_Y, Ext.Pt.lin]
      have hm' := congrArg S.emb hm
      have hb' := congrArg S.emb hb
      simp only [map_mul, map_sub, map_neg, map_pow, map_ofNat] at hm' hb' ⊢
      linear_combination - S.emb Z ^ 2 * (P.ax - S.emb x) * hm' + 3 * S.emb Z ^ 2 * hb'

theorem add_step (h2 : (2 : F) ≠ 0) {r t : Jac F} {R T : (curve b).Point} (hr : r.HRep R) (ht : t.HRep T) (hz1 : t.z = 1)
    (hRT : R + T ≠ 0) (hRT' : R ≠ T) {t0 t1 : F} (e0 : t0 = r.y - t.y * r.z) (e1 : t1 = r.x - t.x * r.z) :
    (⟨t1 * (t1 * (t1 * t1) - 2 * (r.x * (t1 * t1)) + r.z * (t0 * t0)),
      (r.x * (t1 * t1) - (t1 * (t1 * t1) - 2 * (r.x * (t1 * t1)) + r.z * (t0 * t0))) * t0 - r.y * (t1 * (t1 * t1)),
      r.z * (t1 * (t1 * t1))⟩ : Jac F).HRep (R + T) ∧
    ∃ c : F, c ≠ 0 ∧ ∀ P : S.Pt b, P.lin (t0 * t.x - t1 * t.y) (-t0) t1 = S.emb c * P.ev (chord R T) := by
  match R, hr, T, ht with
  | .some x y hn, ⟨hz, hx, hy⟩, .some x' y' hn', ⟨hz', hx', hy'⟩ =>
    obtain ⟨X, Y, Z⟩ := r
    obtain ⟨X', Y', Z'⟩ := t
    change Z ≠ 0 at hz
    change X = x * Z at hx
    change Y = y * Z at hy
    change X' = x' * Z' at hx'
    change Y' = y' * Z' at hy'
    change Z' = 1 at hz1
    subst hz1
    rw [mul_one] at hx' hy'
    subst hx hy hx' hy'
    have hnn : ¬(x = X' ∧ y = -Y') := by
      rintro ⟨e, e'⟩
      exact hRT (Point.add_of_Y_eq e (by rw [negY_curve]; exact e'))
    obtain ⟨m, k, x₃, h₃, hs, hc, v1, v2, w1, -, -, w5, w6⟩ := line_vieta h2 hn hn' hnn
    have hxx : x ≠ X' := by
      rintro e
      obtain ⟨e', -⟩ := w6 e
      exact hRT' (by subst e e'; rfl)
    have hx3 : x₃ = m ^ 2 - x - X' := by linear_combination w1
    have hk : k = y - m * x := by linear_combination -v1
    have hy2 : Y' = m * X' + k := v2
    change t0 = y * Z - Y' * Z at e0
    change t1 = x * Z - X' * Z at e1
    have e0' : t0 = m * (x - X') * Z := by rw [e0]; linear_combination - Z * w5 hxx
    have e1' : t1 = (x - X') * Z := by rw [e1]; ring
    have ht1 : t1 ≠ 0 := by rw [e1']; exact mul_ne_zero (sub_ne_zero.2 hxx) hz
    constructor
    · rw [hs]
      refine ⟨mul_ne_zero hz (mul_ne_zero ht1 (mul_ne_zero ht1 ht1)), ?_, ?_⟩
      · change t1 * (t1 * (t1 * t1) - 2 * (x * Z * (t1 * t1)) + Z * (t0 * t0)) = x₃ * (Z * (t1 * (t1 * t1)))
        rw [hx3, e0', e1']; ring
      · change (x * Z * (t1 * t1) - (t1 * (t1 * t1) - 2 * (x * Z * (t1 * t1)) + Z * (t0 * t0))) * t0 -
          y * Z * (t1 * (t1 * t1)) = -(m * x₃ + k) * (Z * (t1 * (t1 * t1)))
        rw [hx3, hk, e0', e1']; ring
    · refine ⟨t1, ht1, fun P => ?_⟩
      rw [hc, P.ev_Y, Ext.Pt.lin]
      change S.emb (t0 * X' - t1 * Y') + S.emb (-t0) * P.ax + S.emb t1 * P.ay = _
      have e0'' : t0 = m * t1 := by rw [e0', e1']; ring
      rw [e0'', hy2, v1]
      simp only [map_mul, map_sub, map_neg, map_add]
      ring

end

variable {K : Type} [Field K] [FpOps K] [LawfulFp K] [DecidableEq K]

namespace Fp12

/-- `F_p² → F_p¹²`. -/
def emb : Fp2 K →+* Fp12 K := ofFp6Hom.comp Fp6.ofFp2Hom

theorem emb_eq (a : Fp2 K) : (emb a : Fp12 K) = ⟨⟨a, 0, 0⟩, 0⟩ := rfl

theorem w2_eq : (w : Fp12 K) ^ 2 = ⟨⟨0, 1, 0⟩, 0⟩ := w_sq

theorem w3_eq : (w : Fp12 K) ^ 3 = ⟨0, ⟨0, 1, 0⟩⟩ := by
  rw [pow_succ, w2_eq, w]
  ext1 <;> simp

theorem w6_eq : (w : Fp12 K) ^ 6 = emb Fp2.xi := by
  rw [show (6 : ℕ) = 2 * 3 from rfl, pow_mul, w_sq, ofFp6_pow, Fp6.v_cube]
  rfl

theorem conjugate_pair (x : Fp12 K) : x.conjugate = ⟨x.c0, -x.c1⟩ := by
  ext1
  · rfl
  · exact conjugate_c1 x

/-- A line value as an element of the extension. -/
theorem line_eq (a b c : Fp2 K) : line a b c = emb a + emb b * w ^ 2 + emb c * w ^ 3 := by
  rw [w2_eq, w3_eq, emb_eq, emb_eq, emb_eq, line]
  ext1 <;> ext1 <;> simp

end Fp12

theorem pow_fixed {F : Type*} [Field F] {x : F} {n e : ℕ} (h : x ^ n = x) (hn : 0 < n) (he : n - 1 ∣ e) (h0 : x ≠ 0) :
    x ^ e = 1 := by
  obtain ⟨d, rfl⟩ := he
  have : x ^ (n - 1) = 1 := by
    refine mul_right_cancel₀ h0 ?_
    rw [← pow_succ, Nat.sub_add_cancel hn, h, one_mul]
  rw [pow_mul, this, one_pow]

attribute [local irreducible] p

/-- The extension used by the pairing. -/
def ext12 (K : Type) [Field K] [FpOps K] [LawfulFp K] [DecidableEq K] : Ext (Fp2 K) (Fp12 K) where
  emb := Fp12.emb
  conj :=
    { toFun := fun x => ⟨x.c0, -x.c1⟩
      map_one' := by ext1 <;> simp
      map_mul' := fun x y => by ext1 <;> simp; ring
      map_zero' := by ext1 <;> simp
      map_add' := fun x y => by ext1 <;> simp; ring }
  chi := powMonoidHom Pairing.finalExp
  conj_conj x := by ext1 <;> simp
  conj_emb a := by ext1 <;> simp [Fp12.emb_eq]
  chi_fixed x h := by
    have h' : x ^ p ^ 6 = x := (Fp12.conjugate_eq x).symm.trans ((Fp12.conjugate_pair x).trans h)
    exact pow_fixed h' (by decide +kernel) (by decide +kernel)
  two := by
    intro h
    have := congrArg Fp12.c0 h
    have := congrArg Fp6.c0 this
    rw [show (2 : Fp12 K) = 1 + 1 by norm_num] at this
    exact (goodCurve2 K).two (by rw [show (2 : Fp2 K) = 1 + 1 by norm_num]; exact this)

theorem ext12_chi (x : Fp12 K) : (ext12 K).chi x = x ^ Pairing.finalExp := rfl

theorem ext12_chi_order {x : Fp12 K} (h : x ≠ 0) : (ext12 K).chi x ^ q = 1 := Pairing.finalExp_order h

theorem ext12_conj_w : (ext12 K).conj Fp12.w = -Fp12.w := by
  change (⟨(Fp12.w : Fp12 K).c0, -(Fp12.w : Fp12 K).c1⟩ : Fp12 K) = _
  ext1 <;> simp [Fp12.w]

/-- A base field element in `F_p¹²`. -/
def Fp12.base : K →+* Fp12 K := Fp12.emb.comp Fp2.ofBaseHom

theorem Fp12.emb_ofBase (a : K) : Fp12.emb (Fp2.ofBase a) = Fp12.base a := rfl

theorem ext12_conj_base (a : K) : (ext12 K).conj (Fp12.base a) = Fp12.base a := (ext12 K).conj_emb _

/-- A point of the first curve on the model of the second one. -/
def pt12 {x y : K} (h : (curve (4 : K)).Nonsingular x y) (hx : x ≠ 0) (hy : y ≠ 0) :
    (ext12 K).Pt (4 * Fp2.xi : Fp2 K) where
  ax := Fp12.base x * Fp12.w ^ 2
  ay := Fp12.base y * Fp12.w ^ 3
  eqn := by
    have e := congrArg Fp12.base (equation_iff.1 h.1)
    simp only [map_pow, map_add, map_mul, map_zero, zero_mul, add_zero] at e
    have e4 : (ext12 K).emb (4 * Fp2.xi) = Fp12.base 4 * Fp12.w ^ 6 := by
      rw [Fp12.w6_eq]
      change Fp12.emb _ = _
      rw [map_mul, map_ofNat, map_ofNat]
    rw [e4]
    linear_combination Fp12.w ^ 6 * e
  conj_ax := by
    rw [map_mul, map_pow, ext12_conj_w, ext12_conj_base, neg_sq]
  conj_ay := by
    rw [map_mul, map_pow, ext12_conj_w, ext12_conj_base]; ring
  ay_ne := by
    intro h0
    rw [Fp12.w3_eq] at h0
    have := congrArg (fun t : Fp12 K => t.c1.c1.c0) h0
    simp [Fp12.base, Fp12.emb_eq] at this
    exact hy this
  ax_ne a h0 := by
    rw [Fp12.w2_eq] at h0
    have := congrArg (fun t : Fp12 K => t.c0.c1.c0) h0
    change _ = (Fp12.emb a).c0.c1.c0 at this
    simp [Fp12.base, Fp12.emb_eq] at this
    exact hx this

/-- The Frobenius map of `F_p¹²`. -/
def frob12 : Ext.Frob (ext12 K) (psiData K) p where
  phi :=
    { toFun := fun x => x ^ p
      map_one' := one_pow _
      map_mul' := fun x y => mul_pow x y _
      map_zero' := zero_pow (by decide +kernel)
      map_add' := fun x y => add_pow_char x y p }
  phi_eq _ := rfl
  emb a := by
    change (Fp12.emb a) ^ p = Fp12.emb a.conj
    rw [← map_pow, Fp2.pow_p]

theorem mul_aux {L : Type*} [Field L] {a c w : L} (h : a * c = 1) : a * (c * w) = w := by
  rw [← mul_assoc, h, one_mul]

theorem frob12_w : (ext12 K).emb (psiData K).u * frob12.phi (Fp12.w : Fp12 K) = Fp12.w := by
  change Fp12.emb (N2.cast K psiYN / N2.cast K psiXN) * Fp12.w ^ p = Fp12.w
  have hg : N2.cast K psiYN * N2.cast K gam = N2.cast K psiXN := by
    rw [← N2.to_mul]; exact N2.to_eq (by decide +kernel)
  have e : N2.cast K psiYN / N2.cast K psiXN * N2.cast K gam = 1 := by
    rw [div_mul_eq_mul_div, hg, div_self (psiX_ne K)]
  rw [Fp12.w_pow_p]
  exact mul_aux (by rw [show Fp12.ofFp6 (Fp6.ofFp2 (N2.cast K gam)) = Fp12.emb (N2.cast K gam) from rfl, ← map_mul, e,
    map_one])

theorem frob12_base (a : K) : frob12.phi (Fp12.base a) = Fp12.base a := by
  change Fp12.base a ^ p = _
  rw [← map_pow, IsFp.pow_p]

theorem pt12_rational {x y : K} (h : (curve (4 : K)).Nonsingular x y) (hx : x ≠ 0) (hy : y ≠ 0) :
    frob12.Rational (pt12 h hx hy) where
  ax := by
    have := frob12_w (K := K)
    change _ * frob12.phi (Fp12.base x * Fp12.w ^ 2) = Fp12.base x * Fp12.w ^ 2
    rw [map_mul, map_pow, frob12_base, ← mul_assoc, mul_comm _ (Fp12.base x), mul_assoc, ← mul_pow, this]
  ay := by
    have := frob12_w (K := K)
    change _ * frob12.phi (Fp12.base y * Fp12.w ^ 3) = Fp12.base y * Fp12.w ^ 3
    rw [map_mul, map_pow, frob12_base, ← mul_assoc, mul_comm _ (Fp12.base y), mul_assoc, ← mul_pow, this]

/-- A line of the first curve on the model of the second one. -/
def line12 (m k : K) : Ext.OddLine (ext12 K) where
  l := Fp12.base m * Fp12.w
  e := Fp12.base k * Fp12.w ^ 3
  conj_l := by rw [map_mul, ext12_conj_w, ext12_conj_base]; ring
  conj_e := by rw [map_mul, map_pow, ext12_conj_w, ext12_conj_base]; ring

theorem line12_rational (m k : K) : (line12 m k).Rational frob12 where
  l := by
    have := frob12_w (K := K)
    change _ * frob12.phi (Fp12.base m * Fp12.w) = Fp12.base m * Fp12.w
    rw [map_mul, frob12_base, ← mul_assoc, mul_comm _ (Fp12.base m), mul_assoc, this]
  e := by
    have := frob12_w (K := K)
    change _ * frob12.phi (Fp12.base k * Fp12.w ^ 3) = Fp12.base k * Fp12.w ^ 3
    rw [map_mul, map_pow, frob12_base, ← mul_assoc, mul_comm _ (Fp12.base k), mul_assoc, ← mul_pow, this]

theorem through_aux {K F L : Type} [Field K] [Field F] [DecidableEq F] [Field L] {S : Ext F L} {b : F} (f : K →+* L)
    {x₁ x₂ x₃ y₁ y₂ y₃ m k : K} {w : L} {M : Ext.OddLine S} {P₁ P₂ P₃ : S.Pt b} (hl : M.l = f m * w)
    (he : M.e = f k * w ^ 3) (a1 : P₁.ax = f x₁ * w ^ 2) (a2 : P₂.ax = f x₂ * w ^ 2) (a3 : P₃.ax = f x₃ * w ^ 2)
    (b1 : P₁.ay = f y₁ * w ^ 3) (b2 : P₂.ay = f y₂ * w ^ 3) (b3 : P₃.ay = f y₃ * w ^ 3)
    (e1 : y₁ = m * x₁ + k) (e2 : y₂ = m * x₂ + k) (e3 : y₃ = m * x₃ + k)
    (w1 : x₁ + x₂ + x₃ = m ^ 2) (w2 : x₁ * x₂ + x₁ * x₃ + x₂ * x₃ = -2 * m * k) (w3 : x₁ * x₂ * x₃ = k ^ 2 - 4)
    (hb : S.emb b = f 4 * w ^ 6) : M.Through P₁ P₂ P₃ := by
  have w1' := congrArg f w1
  have w2' := congrArg f w2
  have w3' := congrArg f w3
  simp only [map_add, map_mul, map_pow, map_sub, map_neg, map_ofNat] at w1' w2' w3' hb
  refine ⟨?_, ?_, ?_, ?_, ?_, ?_⟩
  · rw [a1, b1, hl, he, e1, map_add, map_mul]; ring
  · rw [a2, b2, hl, he, e2, map_add, map_mul]; ring
  · rw [a3, b3, hl, he, e3, map_add, map_mul]; ring
  · rw [a1, a2, a3, hl]; linear_combination w ^ 2 * w1'
  · rw [a1, a2, a3, hl, he]; linear_combination w ^ 4 * w2'
  · rw [a1, a2, a3, he, hb]; linear_combination w ^ 6 * w3'

theorem emb_const : (ext12 K).emb (4 * Fp2.xi) = Fp12.base 4 * Fp12.w ^ 6 := by
  rw [Fp12.w6_eq]
  change Fp12.emb _ = _
  rw [map_mul, map_ofNat, map_ofNat]

theorem line12_through {x₁ y₁ x₂ y₂ x₃ y₃ m k : K} {h₁ : (curve (4 : K)).Nonsingular x₁ y₁}
    {h₂ : (curve (4 : K)).Nonsingular x₂ y₂} {h₃ : (curve (4 : K)).Nonsingular x₃ y₃} {hx₁ hy₁ hx₂ hy₂ hx₃ hy₃}
    (e1 : y₁ = m * x₁ + k) (e2 : y₂ = m * x₂ + k) (e3 : y₃ = m * x₃ + k) (w1 : x₁ + x₂ + x₃ = m ^ 2)
    (w2 : x₁ * x₂ + x₁ * x₃ + x₂ * x₃ = -2 * m * k) (w3 : x₁ * x₂ * x₃ = k ^ 2 - 4) :
    (line12 m k).Through (pt12 h₁ hx₁ hy₁) (pt12 h₂ hx₂ hy₂) (pt12 h₃ hx₃ hy₃) := 
  through_aux Fp12.base rfl rfl rfl rfl rfl rfl rfl rfl e1 e2 e3 w1 w2 w3 emb_const

namespace Pairing

open Cocycle

theorem lineVal_eq {P : G1 K} {x y : K} (h : (curve (4 : K)).Nonsingular x y) (hx : x ≠ 0) (hy : y ≠ 0)
    (ex : P.x = x) (ey : P.y = y) (c : Coeff K) : lineVal P c = (pt12 h hx hy).lin c.c0 c.c1 c.c2 := by
  rw [lineVal, Fp12.line_eq, map_mul, map_mul, Fp12.emb_ofBase, Fp12.emb_ofBase, ex, ey]
  change _ = Fp12.emb _ + Fp12.emb _ * (Fp12.base x * Fp12.w ^ 2) + Fp12.emb _ * (Fp12.base y * Fp12.w ^ 3)
  ring

theorem twoInv_eq : (2 : Fp2 K) * Fp2.ofBase FpC.twoInv = 1 := by
  have h : (FpC.twoInv : K) = (((p + 1) / 2 : ℕ) : K) := const_eq_of _ (by decide +kernel) (by decide +kernel)
  have h' : (2 : K) * (((p + 1) / 2 : ℕ) : K) = 1 := by
    have : ((2 * ((p + 1) / 2) : ℕ) : K) = ((p + 1 : ℕ) : K) := by
      rw [show 2 * ((p + 1) / 2) = p + 1 by decide +kernel]
    rw [Nat.cast_mul, Nat.cast_add, CharP.cast_eq_zero K p, zero_add, Nat.cast_one, Nat.cast_ofNat] at this
    exact this
  rw [h]
  have := congrArg (Fp2.ofBaseHom (K := K)) h'
  rw [map_mul, map_one, map_ofNat] at this
  exact this

theorem doublingStep_eq (r : G2 K) : doublingStep r =
    (⟨3 * (4 * Fp2.xi) * (r.z * r.z) - r.y * r.y, 3 * r.x * r.x, -(2 * r.y * r.z)⟩,
    ⟨(r.y * r.y - 9 * (4 * Fp2.xi) * (r.z * r.z)) * (r.x * r.y * Fp2.ofBase FpC.twoInv),
      ((r.y * r.y + 9 * (4 * Fp2.xi) * (r.z * r.z)) * Fp2.ofBase FpC.twoInv) *
        ((r.y * r.y + 9 * (4 * Fp2.xi) * (r.z * r.z)) * Fp2.ofBase FpC.twoInv) -
        27 * (4 * Fp2.xi) * (4 * Fp2.xi) * (r.z * r.z) * (r.z * r.z), r.y * r.y * (2 * r.y * r.z)⟩) := by
  unfold doublingStep
  simp only [ops_eq]
  generalize Fp2.ofBase (FpC.twoInv : K) = h
  refine Prod.ext ?_ ?_
  · congr 1 <;> ring
  · congr 1 <;> ring

theorem additionStep_eq (r t : G2 K) : additionStep r t =
    (⟨(r.y - t.y * r.z) * t.x - (r.x - t.x * r.z) * t.y, -(r.y - t.y * r.z), r.x - t.x * r.z⟩,
     (let t0 := r.y - t.y * r.z
      let t1 := r.x - t.x * r.z
      ⟨t1 * (t1 * (t1 * t1) - 2 * (r.x * (t1 * t1)) + r.z * (t0 * t0)),
      (r.x * (t1 * t1) - (t1 * (t1 * t1) - 2 * (r.x * (t1 * t1)) + r.z * (t0 * t0))) * t0 - r.y * (t1 * (t1 * t1)),
      r.z * (t1 * (t1 * t1))⟩)) := by
  unfold additionStep
  simp only [ops_eq]
  refine Prod.ext ?_ ?_
  · congr 1 <;> ring
  · congr 1 <;> ring

end Pairing

end Bls
