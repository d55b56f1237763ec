import Verif.Proof.Cocycle

/-!
# Values of lines at a point of a field extension

`F` is the field of the curve, `L` an extension with an involution fixing `F`; the character `χ` kills the nonzero
elements fixed by the involution.
-/

namespace Bls

open WeierstrassCurve.Affine WeierstrassCurve.Affine.CoordinateRing Polynomial Chord Cocycle
open scoped Polynomial.Bivariate

/-- The line through two points that are not opposite, with Vieta's relations. -/
theorem line_vieta {F : Type} [Field F] [DecidableEq F] {b : F} (h2 : (2 : F) ≠ 0) {x₁ y₁ x₂ y₂ : F}
    (h₁ : (curve b).Nonsingular x₁ y₁) (h₂ : (curve b).Nonsingular x₂ y₂) (hn : ¬(x₁ = x₂ ∧ y₁ = -y₂)) :
    ∃ m k x₃ : F, ∃ h₃ : (curve b).Nonsingular x₃ (-(m * x₃ + k)),
      Point.some x₁ y₁ h₁ + Point.some x₂ y₂ h₂ = Point.some x₃ (-(m * x₃ + k)) h₃ ∧
      chord (Point.some x₁ y₁ h₁) (Point.some x₂ y₂ h₂) = YClass (curve b) (linePolynomial x₁ y₁ m) ∧
      y₁ = m * x₁ + k ∧ y₂ = m * x₂ + k ∧ x₁ + x₂ + x₃ = m ^ 2 ∧
      x₁ * x₂ + x₁ * x₃ + x₂ * x₃ = -2 * m * k ∧ x₁ * x₂ * x₃ = k ^ 2 - b ∧
      (x₁ ≠ x₂ → m * (x₁ - x₂) = y₁ - y₂) ∧ (x₁ = x₂ → y₁ = y₂ ∧ 2 * y₁ ≠ 0 ∧ m * (2 * y₁) = 3 * x₁ ^ 2) := by
  have hn' : ¬(x₁ = x₂ ∧ y₁ = (curve b).negY x₂ y₂) := by rwa [negY_curve]
  have hs : (x₁ ≠ x₂ → (curve b).slope x₁ x₂ y₁ y₂ * (x₁ - x₂) = y₁ - y₂) ∧
      (x₁ = x₂ → y₁ = y₂ ∧ 2 * y₁ ≠ 0 ∧ (curve b).slope x₁ x₂ y₁ y₂ * (2 * y₁) = 3 * x₁ ^ 2) := by
    constructor
    · intro hx
      rw [slope_of_X_ne hx, div_mul_cancel₀ _ (sub_ne_zero.2 hx)]
    · rintro rfl
      have hy : y₁ ≠ -y₂ := fun h => hn ⟨rfl, h⟩
      have hyy : y₁ = y₂ := by
        have e1 := equation_iff.1 h₁.1
        have e2 := equation_iff.1 h₂.1
        have : (y₁ + y₂) * (y₁ - y₂) = 0 := by linear_combination e1 - e2
        rcases mul_eq_zero.1 this with h | h
        · exact absurd (by linear_combination h) hy
        · linear_combination h
      subst hyy
      have h2y : 2 * y₁ ≠ 0 := fun h0 => hy (by linear_combination h0)
      refine ⟨rfl, h2y, ?_⟩
      rw [slope_of_Y_ne rfl (by rw [negY_curve]; exact hy), negY_curve, sub_neg_eq_add, ← two_mul,
        div_mul_cancel₀ _ h2y]
      simp [curveAB]
  have hp := addPolynomial_slope h₁.1 h₂.1 hn'
  have hc : chord (Point.some x₁ y₁ h₁) (Point.some x₂ y₂ h₂) =
      YClass (curve b) (linePolynomial x₁ y₁ ((curve b).slope x₁ x₂ y₁ y₂)) := by rw [chord, if_neg hn']
  have hX : (curve b).addX x₁ x₂ ((curve b).slope x₁ x₂ y₁ y₂) = (curve b).slope x₁ x₂ y₁ y₂ ^ 2 - x₁ - x₂ := by
    simp [curveAB, addX]
  have hadd : ∃ h₃, Point.some x₁ y₁ h₁ + Point.some x₂ y₂ h₂ =
      Point.some ((curve b).slope x₁ x₂ y₁ y₂ ^ 2 - x₁ - x₂) (-((curve b).slope x₁ x₂ y₁ y₂ *
        ((curve b).slope x₁ x₂ y₁ y₂ ^ 2 - x₁ - x₂) + (y₁ - (curve b).slope x₁ x₂ y₁ y₂ * x₁))) h₃ := by
    rw [Point.add_some hn']
    refine some_congr hX ?_
    rw [addY, negAddY, hX, negY_curve]
    ring
  generalize (curve b).slope x₁ x₂ y₁ y₂ = m at *
  have hv : ∀ t : F, (m * t + (y₁ - m * x₁)) ^ 2 - t ^ 3 - b =
      -((t - x₁) * (t - x₂) * (t - (m ^ 2 - x₁ - x₂))) := by
    intro t
    have := congrArg (Polynomial.eval t) hp
    rw [hX] at this
    simp [addPolynomial, linePolynomial, curveAB, WeierstrassCurve.Affine.polynomial] at this
    linear_combination this
  have v0 := hv 0
  have v1 := hv 1
  have v2 := hv (-1)
  obtain ⟨h₃, e₃⟩ := hadd
  refine ⟨m, y₁ - m * x₁, m ^ 2 - x₁ - x₂, h₃, e₃, hc, by ring, ?_, by ring, ?_, ?_, hs⟩
  · by_cases hx : x₁ = x₂
    · obtain ⟨e, -⟩ := hs.2 hx
      rw [← hx, ← e]; ring
    · linear_combination hs.1 hx
  · refine mul_left_cancel₀ h2 ?_
    linear_combination v1 - v2
  · linear_combination -v0


variable {F L : Type} [Field F] [DecidableEq F] [Field L]

/-- An extension with an involution and a character. -/
structure Ext (F L : Type) [Field F] [Field L] where
  emb : F →+* L
  conj : L →+* L
  chi : L →* L
  conj_conj : ∀ x, conj (conj x) = x
  conj_emb : ∀ a, conj (emb a) = emb a
  chi_fixed : ∀ x, conj x = x → x ≠ 0 → chi x = 1
  two : (2 : L) ≠ 0

namespace Ext

variable (S : Ext F L)

omit [DecidableEq F] in
theorem chi_ne {x : L} (h : x ≠ 0) : S.chi x ≠ 0 := by
  intro h0
  have : S.chi (x * x⁻¹) = 0 := by rw [map_mul, h0, zero_mul]
  rw [mul_inv_cancel₀ h, map_one] at this
  exact one_ne_zero this

omit [DecidableEq F] in
theorem chi_emb {a : F} (h : a ≠ 0) : S.chi (S.emb a) = 1 :=
  S.chi_fixed _ (S.conj_emb a) ((map_ne_zero S.emb).2 h)

omit [DecidableEq F] in
theorem chi_neg (x : L) : S.chi (-x) = S.chi x := by
  have h : S.chi (-1) = 1 := S.chi_fixed _ (by rw [map_neg, map_one]) (by simp)
  rw [← neg_one_mul, map_mul, h, one_mul]

omit [DecidableEq F] in
theorem chi_conj {x : L} (h : x ≠ 0) : S.chi (S.conj x) * S.chi x = 1 := by
  rw [← map_mul]
  refine S.chi_fixed _ ?_ (mul_ne_zero ((map_ne_zero S.conj).2 h) h)
  rw [map_mul, S.conj_conj, mul_comm]

/-- A point of the curve over `L` with abscissa fixed by the involution but outside `F`, and ordinate changing its
sign. -/
@[ext] structure Pt (b : F) where
  ax : L
  ay : L
  eqn : ay ^ 2 = ax ^ 3 + S.emb b
  conj_ax : S.conj ax = ax
  conj_ay : S.conj ay = -ay
  ay_ne : ay ≠ 0
  ax_ne : ∀ a, ax ≠ S.emb a

variable {S} {b : F}

/-- The opposite point. -/
def Pt.neg (P : S.Pt b) : S.Pt b where
  ax := P.ax
  ay := -P.ay
  eqn := by rw [neg_sq, P.eqn]
  conj_ax := P.conj_ax
  conj_ay := by rw [map_neg, P.conj_ay]
  ay_ne := neg_ne_zero.2 P.ay_ne
  ax_ne := P.ax_ne

/-- Evaluation of functions. -/
noncomputable def Pt.ev (P : S.Pt b) : (curve b).CoordinateRing →+* L :=
  AdjoinRoot.lift (Polynomial.eval₂RingHom S.emb P.ax) P.ay (by
    have := P.eqn
    simp [WeierstrassCurve.Affine.polynomial, curveAB, -map_pow, ← C_pow]
    linear_combination this)

theorem Pt.ev_mk (P : S.Pt b) (f : F[X][Y]) :
    P.ev (CoordinateRing.mk (curve b) f) = f.eval₂ (Polynomial.eval₂RingHom S.emb P.ax) P.ay :=
  AdjoinRoot.lift_mk _ f

theorem Pt.ev_const (P : S.Pt b) (c : F) : P.ev (CoordinateRing.mk (curve b) (C (C c))) = S.emb c := by
  rw [ev_mk]; simp

theorem Pt.ev_X (P : S.Pt b) (x : F) : P.ev (XClass (curve b) x) = P.ax - S.emb x := by
  rw [XClass, ev_mk]; simp

theorem Pt.ev_Y (P : S.Pt b) (x y m : F) :
    P.ev (YClass (curve b) (linePolynomial x y m)) = P.ay - S.emb y - S.emb m * (P.ax - S.emb x) := by
  rw [YClass, ev_mk]; simp [linePolynomial]; ring

theorem Pt.vert_ne (P : S.Pt b) (R : (curve b).Point) : P.ev (vert R) ≠ 0 := by
  cases R with
  | zero => rw [vert, map_one]; exact one_ne_zero
  | some x y h => rw [vert, ev_X]; exact sub_ne_zero.2 (P.ax_ne x)

theorem Pt.chi_vert (P : S.Pt b) (R : (curve b).Point) : S.chi (P.ev (vert R)) = 1 := by
  refine S.chi_fixed _ ?_ (P.vert_ne R)
  cases R with
  | zero => rw [vert, map_one, map_one]
  | some x y h => rw [vert, ev_X, map_sub, P.conj_ax, S.conj_emb]

theorem Pt.conj_line (P : S.Pt b) (x y m : F) : S.conj (P.ay - S.emb y - S.emb m * (P.ax - S.emb x)) =
    -P.ay - S.emb y - S.emb m * (P.ax - S.emb x) := by
  rw [map_sub, map_sub, map_mul, map_sub, P.conj_ax, P.conj_ay, S.conj_emb, S.conj_emb, S.conj_emb]

theorem Pt.line_ne (P : S.Pt b) (x y m : F) : P.ay - S.emb y - S.emb m * (P.ax - S.emb x) ≠ 0 := by
  intro h
  have h' := congrArg S.conj h
  rw [P.conj_line, map_zero] at h'
  have : 2 * P.ay = 0 := by linear_combination h - h'
  exact P.ay_ne ((mul_eq_zero.1 this).resolve_left S.two)

/-- The forms of a chord, and of its image under a map of the curve. -/
theorem chord_cases (h2 : (2 : F) ≠ 0) (hb : GoodCurve b) (D : EndoData b) (A B : (curve b).Point) :
    (∃ R R', chord A B = vert R ∧ chord (D.hom hb A) (D.hom hb B) = vert R') ∨
    (∃ x y m, chord A B = YClass (curve b) (linePolynomial x y m) ∧ chord (D.hom hb A) (D.hom hb B) =
      YClass (curve b) (linePolynomial (D.u ^ 2 * D.tau x) (D.u ^ 3 * D.tau y) (D.u * D.tau m))) := by
  match A, B with
  | .zero, B => exact Or.inl ⟨B, D.hom hb B, rfl, rfl⟩
  | .some x y h, .zero => exact Or.inl ⟨.some x y h, D.hom hb (.some x y h), rfl, rfl⟩
  | .some x₁ y₁ h₁, .some x₂ y₂ h₂ =>
    have hu := D.hu
    by_cases hn : x₁ = x₂ ∧ y₁ = -y₂
    · refine Or.inl ⟨.some x₁ y₁ h₁, D.hom hb (.some x₁ y₁ h₁), ?_, ?_⟩
      · rw [chord, if_pos (by rwa [negY_curve])]; rfl
      · rw [D.hom_some, D.hom_some, chord, if_pos]
        · rfl
        · rw [negY_curve, hn.1, hn.2, map_neg]; exact ⟨rfl, by ring⟩
    · obtain ⟨m, k, x₃, h₃, -, e, -, -, -, -, -, k1, k2⟩ := line_vieta h2 h₁ h₂ hn
      have hn' : ¬(D.u ^ 2 * D.tau x₁ = D.u ^ 2 * D.tau x₂ ∧ D.u ^ 3 * D.tau y₁ = -(D.u ^ 3 * D.tau y₂)) := by
        rintro ⟨e1, e2⟩
        refine hn ⟨D.tau.injective (mul_left_cancel₀ (pow_ne_zero _ hu) e1), D.tau.injective ?_⟩
        rw [map_neg]
        exact mul_left_cancel₀ (pow_ne_zero 3 hu) (by rw [e2]; ring)
      obtain ⟨m', k', x₃', h₃', -, e', -, -, -, -, -, k1', k2'⟩ :=
        line_vieta h2 (D.map_nonsingular hb h₁) (D.map_nonsingular hb h₂) hn'
      refine Or.inr ⟨x₁, y₁, m, e, ?_⟩
      rw [D.hom_some, D.hom_some, e']
      congr 2
      by_cases hx : x₁ = x₂
      · obtain ⟨-, hy, km⟩ := k2 hx
        obtain ⟨-, hy', km'⟩ := k2' (by rw [hx])
        refine mul_right_cancel₀ hy' ?_
        have := congrArg D.tau km
        simp only [map_mul, map_pow, map_ofNat] at this
        rw [km']
        linear_combination - D.u ^ 4 * this
      · have hx' : D.u ^ 2 * D.tau x₁ ≠ D.u ^ 2 * D.tau x₂ := fun h0 =>
          D.tau_ne hx (mul_left_cancel₀ (pow_ne_zero _ hu) h0)
        have km := congrArg D.tau (k1 hx)
        simp only [map_mul, map_sub] at km
        refine mul_right_cancel₀ (sub_ne_zero.2 hx') ?_
        rw [k1' hx']
        linear_combination - D.u ^ 3 * km

/-- Negation as such a map. -/
def negData (b : F) : EndoData b := ⟨RingHom.id F, -1, by simp, by simp only [RingHom.id_apply]; ring⟩

theorem negData_hom (hb : GoodCurve b) (A : (curve b).Point) : (negData b).hom hb A = -A := by
  cases A with
  | zero => rfl
  | some x y h =>
    rw [EndoData.hom_some, Point.neg_some]
    obtain ⟨h', e⟩ := some_congr (h := (negData b).map_nonsingular hb h) (x' := x) (y' := (curve b).negY x y)
      (by simp [negData]) (by rw [negY_curve]; simp [negData]; ring)
    exact e

theorem Pt.chord_ne (h2 : (2 : F) ≠ 0) (hb : GoodCurve b) (P : S.Pt b) (A B : (curve b).Point) : P.ev (chord A B) ≠ 0 := by
  rcases chord_cases h2 hb (negData b) A B with ⟨R, R', h, -⟩ | ⟨x, y, m, h, -⟩
  · rw [h]; exact P.vert_ne R
  · rw [h, ev_Y]; exact P.line_ne x y m

variable (h2 : (2 : F) ≠ 0) (hb : GoodCurve b)

/-- The cocycle of lines. -/
noncomputable def Pt.kap (P : S.Pt b) (A B : (curve b).Point) : Lˣ :=
  Units.mk0 (S.chi (P.ev (chord A B))) (S.chi_ne (P.chord_ne h2 hb A B))

theorem Pt.kap_val (P : S.Pt b) (A B : (curve b).Point) : (P.kap h2 hb A B : L) = S.chi (P.ev (chord A B)) := rfl

theorem Pt.kap_isCocycle (P : S.Pt b) : IsCocycle (P.kap h2 hb) where
  zero Q := Units.ext (by rw [kap_val]; exact P.chi_vert Q)
  comm A B := Units.ext (by
    obtain ⟨c, hc, e⟩ := chord_comm A B
    rw [kap_val, kap_val, e, map_mul, map_mul, ev_const, S.chi_emb hc, one_mul])
  cocycle A B C := Units.ext (by
    obtain ⟨c, hc, e⟩ := chord_cocycle A B C
    have := congrArg (fun t => S.chi (P.ev t)) e
    simp only [map_mul, ev_const, S.chi_emb hc, P.chi_vert, one_mul, mul_one] at this
    rw [Units.val_mul, Units.val_mul, kap_val, kap_val, kap_val, kap_val]
    exact this)

theorem Pt.kap_neg_left (P : S.Pt b) (A B : (curve b).Point) : P.neg.kap h2 hb A B * P.kap h2 hb A B = 1 := Units.ext (by
  rw [Units.val_mul, kap_val, kap_val, Units.val_one]
  rcases chord_cases h2 hb (negData b) A B with ⟨R, R', h, -⟩ | ⟨x, y, m, h, -⟩
  · rw [h, P.chi_vert, P.neg.chi_vert, mul_one]
  · rw [h, ev_Y, ev_Y, ← S.chi_conj (P.line_ne x y m)]
    rw [P.conj_line]
    rfl)

theorem Pt.kap_neg (P : S.Pt b) (A B : (curve b).Point) : P.kap h2 hb (-A) (-B) * P.kap h2 hb A B = 1 := Units.ext (by
  rw [Units.val_mul, kap_val, kap_val, Units.val_one]
  rcases chord_cases h2 hb (negData b) A B with ⟨R, R', h, h'⟩ | ⟨x, y, m, h, h'⟩
  · rw [negData_hom, negData_hom] at h'
    rw [h, h', P.chi_vert, P.chi_vert, mul_one]
  · rw [negData_hom, negData_hom] at h'
    rw [h, h', ev_Y, ev_Y, ← S.chi_conj (P.line_ne x y m), ← S.chi_neg (S.conj _)]
    rw [P.conj_line]
    congr 2
    simp only [negData, RingHom.id_apply, map_mul, map_pow, map_neg, map_one]
    ring)

/-- A Frobenius map of the extension that acts on the curve through `D`. -/
structure Frob (S : Ext F L) (D : EndoData b) (n : ℕ) where
  phi : L →+* L
  phi_eq : ∀ x, phi x = x ^ n
  emb : ∀ a, phi (S.emb a) = S.emb (D.tau a)

/-- The point is fixed by the Frobenius map of the other model of the curve. -/
structure Frob.Rational {D : EndoData b} {n : ℕ} (T : Frob S D n) (P : S.Pt b) : Prop where
  ax : S.emb D.u ^ 2 * T.phi P.ax = P.ax
  ay : S.emb D.u ^ 3 * T.phi P.ay = P.ay

theorem Pt.kap_frob {D : EndoData b} {n : ℕ} (T : Frob S D n) (P : S.Pt b) (hP : T.Rational P)
    (A B : (curve b).Point) : P.kap h2 hb (D.hom hb A) (D.hom hb B) = P.kap h2 hb A B ^ n := Units.ext (by
  rw [Units.val_pow_eq_pow_val, kap_val, kap_val]
  rcases chord_cases h2 hb D A B with ⟨R, R', h, h'⟩ | ⟨x, y, m, h, h'⟩
  · rw [h, h', P.chi_vert, P.chi_vert, one_pow]
  · rw [h, h', ev_Y, ev_Y, ← map_pow, ← T.phi_eq]
    have hu : S.chi (S.emb D.u ^ 3) = 1 := by rw [map_pow, S.chi_emb D.hu, one_pow]
    have e : P.ay - S.emb (D.u ^ 3 * D.tau y) - S.emb (D.u * D.tau m) * (P.ax - S.emb (D.u ^ 2 * D.tau x)) =
        S.emb D.u ^ 3 * T.phi (P.ay - S.emb y - S.emb m * (P.ax - S.emb x)) := by
      have h1 := hP.ax
      have h3 := hP.ay
      simp only [map_sub, map_mul, map_pow, T.emb]
      linear_combination (-1 : L) * h3 + S.emb D.u * S.emb (D.tau m) * h1
    rw [e, map_mul, hu, one_mul])

/-- Linearity of the Miller function in its base point. -/
theorem Pt.phi_add {D : EndoData b} {n : ℕ} (T : Frob S D n) (P : S.Pt b) (hP : T.Rational P) {N r : ℕ}
    (hr : ∀ x, x ≠ 0 → S.chi x ^ r = 1) (hd : r ∣ N + n) {Q R : (curve b).Point} (hQ : D.hom hb Q = -(N • Q))
    (hR : D.hom hb R = -(N • R)) :
    phi (P.kap h2 hb) (Q + R) N = phi (P.kap h2 hb) Q N * phi (P.kap h2 hb) R N := by
  have hk := P.kap_isCocycle h2 hb
  have h1 := phi_linear hk Q R N
  have h3 := P.kap_frob h2 hb T hP Q R
  rw [hQ, hR] at h3
  have h4 := P.kap_neg h2 hb (N • Q) (N • R)
  rw [h3] at h4
  have h5 : P.kap h2 hb Q R ^ (N + n) = 1 := by
    obtain ⟨d, hd⟩ := hd
    have : P.kap h2 hb Q R ^ r = 1 := Units.ext (by
      rw [Units.val_pow_eq_pow_val, kap_val, Units.val_one]
      exact hr _ (P.chord_ne h2 hb Q R))
    rw [hd, pow_mul, this, one_pow]
  calc phi (P.kap h2 hb) (Q + R) N = P.kap h2 hb Q R ^ (N + n) * phi (P.kap h2 hb) (Q + R) N := by rw [h5, one_mul]
    _ = P.kap h2 hb Q R ^ n * (P.kap h2 hb Q R ^ N * phi (P.kap h2 hb) (Q + R) N) := by
      rw [pow_add, mul_comm (P.kap h2 hb Q R ^ N), mul_assoc]
    _ = phi (P.kap h2 hb) Q N * phi (P.kap h2 hb) R N * (P.kap h2 hb Q R ^ n * P.kap h2 hb (N • Q) (N • R)) := by
      rw [← h1]; simp only [mul_assoc, mul_left_comm, mul_comm]
    _ = _ := by rw [h4, mul_one]

/-- A line `y = l x + e` over `L` whose coefficients change sign under the involution. -/
structure OddLine (S : Ext F L) where
  l : L
  e : L
  conj_l : S.conj l = -l
  conj_e : S.conj e = -e

/-- Its value at a point over `F`. -/
def OddLine.val (M : OddLine S) : (curve b).Point → L
  | .zero => 1
  | .some x y _ => S.emb y - M.l * S.emb x - M.e

open scoped Classical in
/-- The character of its value. -/
noncomputable def OddLine.g (M : OddLine S) (R : (curve b).Point) : Lˣ :=
  if h : M.val R ≠ 0 then Units.mk0 (S.chi (M.val R)) (S.chi_ne h) else 1

theorem add_self_ne {x y : F} {h : (curve b).Nonsingular x y} (hR : Point.some x y h + Point.some x y h ≠ 0) :
    y ≠ 0 := by
  rintro rfl
  exact hR (Point.add_of_Y_eq rfl (by rw [negY_curve, neg_zero]))

theorem OddLine.val_ne (M : OddLine S) {R : (curve b).Point} (hR : R + R ≠ 0) : M.val R ≠ 0 := by
  cases R with
  | zero => exact one_ne_zero
  | some x y h =>
    intro h0
    have hy := add_self_ne hR
    have h0' : S.emb y - M.l * S.emb x - M.e = 0 := h0
    have h1 := congrArg S.conj h0'
    rw [map_sub, map_sub, map_mul, M.conj_l, M.conj_e, S.conj_emb, S.conj_emb, map_zero] at h1
    have : 2 * S.emb y = 0 := by linear_combination h0' + h1
    exact hy ((map_eq_zero S.emb).1 ((mul_eq_zero.1 this).resolve_left S.two))

theorem OddLine.g_val (M : OddLine S) {R : (curve b).Point} (hR : R + R ≠ 0) : (M.g R : L) = S.chi (M.val R) := by
  rw [g, dif_pos (M.val_ne hR)]; rfl

theorem OddLine.g_neg (M : OddLine S) {R : (curve b).Point} (hR : R + R ≠ 0) : M.g R * M.g (-R) = 1 := Units.ext (by
  have hR' : -R + -R ≠ 0 := by
    intro h0
    apply hR
    rw [← neg_inj, neg_add, h0, neg_zero]
  rw [Units.val_mul, M.g_val hR, M.g_val hR', Units.val_one, mul_comm, ← S.chi_conj (M.val_ne hR)]
  congr 1
  cases R with
  | zero => exact absurd (zero_add 0) hR
  | some x y h =>
    rw [← S.chi_neg, Point.neg_some]
    congr 1
    change -(S.emb ((curve b).negY x y) - M.l * S.emb x - M.e) = S.conj (S.emb y - M.l * S.emb x - M.e)
    rw [map_sub, map_sub, map_mul, M.conj_l, M.conj_e, S.conj_emb, S.conj_emb, negY_curve, map_neg]
    ring)

/-- The line is defined over the prime field on the other model. -/
structure OddLine.Rational {D : EndoData b} {n : ℕ} (T : Frob S D n) (M : OddLine S) : Prop where
  l : S.emb D.u * T.phi M.l = M.l
  e : S.emb D.u ^ 3 * T.phi M.e = M.e

theorem OddLine.g_frob {D : EndoData b} {n : ℕ} (T : Frob S D n) (M : OddLine S) (hM : M.Rational T)
    {R : (curve b).Point} (hR : R + R ≠ 0) (hR' : D.hom hb R + D.hom hb R ≠ 0) :
    M.g (D.hom hb R) = M.g R ^ n := Units.ext (by
  rw [Units.val_pow_eq_pow_val, M.g_val hR, M.g_val hR', ← map_pow, ← T.phi_eq]
  cases R with
  | zero => exact absurd (zero_add 0) hR
  | some x y h =>
    have hu : S.chi (S.emb D.u ^ 3) = 1 := by rw [map_pow, S.chi_emb D.hu, one_pow]
    rw [D.hom_some]
    have e : M.val (Point.some _ _ (D.map_nonsingular hb h)) = S.emb D.u ^ 3 * T.phi (M.val (Point.some x y h)) := by
      change S.emb (D.u ^ 3 * D.tau y) - M.l * S.emb (D.u ^ 2 * D.tau x) - M.e =
        S.emb D.u ^ 3 * T.phi (S.emb y - M.l * S.emb x - M.e)
      have h1 := hM.l
      have h3 := hM.e
      simp only [map_sub, map_mul, map_pow, T.emb]
      linear_combination h3 + S.emb D.u ^ 2 * S.emb (D.tau x) * h1
    rw [e, map_mul, hu, one_mul])

/-- Three points of a line that is not vertical, with Vieta's relations. -/
structure OddLine.Through (M : OddLine S) (P₁ P₂ P₃ : S.Pt b) : Prop where
  y₁ : P₁.ay = M.l * P₁.ax + M.e
  y₂ : P₂.ay = M.l * P₂.ax + M.e
  y₃ : P₃.ay = M.l * P₃.ax + M.e
  e₁ : P₁.ax + P₂.ax + P₃.ax = M.l ^ 2
  e₂ : P₁.ax * P₂.ax + P₁.ax * P₃.ax + P₂.ax * P₃.ax = -2 * M.l * M.e
  e₃ : P₁.ax * P₂.ax * P₃.ax = M.e ^ 2 - S.emb b

/-- Reciprocity of two lines. -/
theorem OddLine.reciprocity (M : OddLine S) {P₁ P₂ P₃ : S.Pt b} (hM : M.Through P₁ P₂ P₃) {A B : (curve b).Point}
    (hA : A + A ≠ 0) (hB : B + B ≠ 0) (hAB : -(A + B) + -(A + B) ≠ 0) :
    P₁.kap h2 hb A B * P₂.kap h2 hb A B * P₃.kap h2 hb A B = M.g A * M.g B * M.g (-(A + B)) := Units.ext (by
  simp only [Units.val_mul]
  rw [M.g_val hA, M.g_val hB, M.g_val hAB, Pt.kap_val, Pt.kap_val, Pt.kap_val, ← map_mul, ← map_mul, ← map_mul,
    ← map_mul, ← S.chi_neg]
  congr 1
  match A, B with
  | .zero, B => exact absurd (zero_add 0) hA
  | .some x y h, .zero => exact absurd (zero_add 0) hB
  | .some x₁ y₁ h₁, .some x₂ y₂ h₂ =>
    have hn : ¬(x₁ = x₂ ∧ y₁ = -y₂) := by
      rintro ⟨hx, hy⟩
      rw [Point.add_of_Y_eq hx (by rwa [negY_curve])] at hAB
      exact hAB (by simp)
    obtain ⟨m, k, x₃, h₃, hs, hc, v1, v2, w1, w2, w3, -, -⟩ := line_vieta h2 h₁ h₂ hn
    rw [hs, hc, Pt.ev_Y, Pt.ev_Y, Pt.ev_Y, Point.neg_some]
    change -((P₁.ay - S.emb y₁ - S.emb m * (P₁.ax - S.emb x₁)) * (P₂.ay - S.emb y₁ - S.emb m * (P₂.ax - S.emb x₁)) *
      (P₃.ay - S.emb y₁ - S.emb m * (P₃.ax - S.emb x₁))) = (S.emb y₁ - M.l * S.emb x₁ - M.e) *
      (S.emb y₂ - M.l * S.emb x₂ - M.e) * (S.emb ((curve b).negY x₃ (-(m * x₃ + k))) - M.l * S.emb x₃ - M.e)
    rw [negY_curve, neg_neg, hM.y₁, hM.y₂, hM.y₃, v1, v2]
    have w1' := congrArg S.emb w1
    have w2' := congrArg S.emb w2
    have w3' := congrArg S.emb w3
    simp only [map_add, map_mul, map_pow, map_sub, map_neg, map_ofNat] at w1' w2' w3' ⊢
    have f1 := hM.e₁
    have f2 := hM.e₂
    have f3 := hM.e₃
    generalize S.emb x₁ = a₁ at *
    generalize S.emb x₂ = a₂ at *
    generalize S.emb x₃ = a₃ at *
    generalize S.emb m = m at *
    generalize S.emb k = k at *
    generalize S.emb b = b' at *
    generalize P₁.ax = z₁ at *
    generalize P₂.ax = z₂ at *
    generalize P₃.ax = z₃ at *
    generalize M.l = l at *
    generalize M.e = e at *
    have E1 : ∀ z, l * z + e - (m * a₁ + k) - m * (z - a₁) = (l - m) * z + (e - k) := fun z => by ring
    rw [E1, E1, E1]
    linear_combination (-(l - m) ^ 3) * f3 - (l - m) ^ 2 * (e - k) * f2 - (l - m) * (e - k) ^ 2 * f1 +
      (l - m) ^ 3 * w3' + (l - m) ^ 2 * (e - k) * w2' + (l - m) * (e - k) ^ 2 * w1')

/-- Linearity of the Miller function in the point of evaluation. -/
theorem OddLine.phi_through {D : EndoData b} {n : ℕ} (T : Frob S D n) (M : OddLine S) (hM : M.Rational T)
    {P₁ P₂ P₃ : S.Pt b} (ht : M.Through P₁ P₂ P₃) {N r : ℕ}
    (hr : ∀ x, x ≠ 0 → S.chi x ^ r = 1) (hd : r ∣ N + n) {Q : (curve b).Point} (hQ : D.hom hb Q = -(N • Q))
    (hN : 0 < N) (hord : ∀ k, 0 < k → k ≤ N → k • Q + k • Q ≠ 0) :
    phi (P₁.kap h2 hb) Q N * phi (P₂.kap h2 hb) Q N * phi (P₃.kap h2 hb) Q N = 1 := by
  have neg_dbl : ∀ R : (curve b).Point, R + R ≠ 0 → -R + -R ≠ 0 := by
    intro R hR h0
    apply hR
    rw [← neg_inj, neg_add, h0, neg_zero]
  have hQ1 : Q + Q ≠ 0 := by simpa using hord 1 one_pos hN
  have h1 := phi_three (P₁.kap_isCocycle h2 hb) (P₂.kap_isCocycle h2 hb) (P₃.kap_isCocycle h2 hb) (g := M.g) N
    (fun k h0 hk => M.g_neg (hord k h0 hk))
    (fun k h0 hk => M.reciprocity h2 hb ht (hord k h0 hk.le) hQ1 (by
      rw [← succ_nsmul]
      exact neg_dbl _ (hord (k + 1) k.succ_pos hk))) N hN le_rfl
  rw [h1, ← hQ, M.g_frob hb T hM hQ1 (by rw [hQ]; exact neg_dbl _ (hord N hN le_rfl)), ← pow_add]
  obtain ⟨d, hd⟩ := hd
  have : M.g Q ^ r = 1 := Units.ext (by
    rw [Units.val_pow_eq_pow_val, M.g_val hQ1, Units.val_one]
    exact hr _ (M.val_ne hQ1))
  rw [hd, pow_mul, this, one_pow]

theorem Pt.phi_neg (P : S.Pt b) (Q : (curve b).Point) : ∀ N,
    phi (P.neg.kap h2 hb) Q N * phi (P.kap h2 hb) Q N = 1
  | 0 => by simp [phi]
  | N + 1 => by
    rw [phi, phi, mul_mul_mul_comm, Pt.phi_neg P Q N, P.kap_neg_left h2 hb, mul_one]

end Ext

end Bls
